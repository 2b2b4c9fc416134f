import Verif.Boundary.Model
import Verif.Ffi.Props
import Verif.Sky.Phase
import Verif.Provider.Props

namespace Verif.Boundary
open Verif.Ffi (Status Mem Addr F64 Alloc Subject scalarCall windowFromC mjdFrom vecToC dispatch)
open Verif.Sky (Label fromElongation toDeg toRad)

/-! ### Specification -/
namespace Spec

/-- The units of angles the header names. -/
inductive AngleUnit
  | degree
  | radian

/-- The number `x` in the unit `u` is the angle of `a` radians. -/
def Denotes (u : AngleUnit) (x a : ℝ) : Prop :=
  match u with
  | .degree => x * Real.pi = a * 180
  | .radian => x = a

/-- The phases in the order of the lunation, as the header numbers them. -/
def phases : List String :=
  ["new moon", "waxing crescent", "first quarter", "waxing gibbous", "full moon", "waning gibbous",
    "last quarter", "waning crescent"]

end Spec
open Spec

theorem denotes_toDeg (a : ℝ) : Denotes .degree (toDeg a) a := by
  show a * (180 / Real.pi) * Real.pi = a * 180
  field_simp

/-! ### Angles -/

/-- **C200.** The altitude written is in radians, as documented. -/
theorem altitude_in_radians {β σ δ : Type} (subject : Subject β σ δ) (t : Rat)
    (altitude : Verif.Ffi.Provider β σ δ → Rat → Option ℝ) (out : Addr) (m : Mem ℝ) (ho : out ≠ 0)
    {p : Verif.Ffi.Provider β σ δ} (hp : dispatch subject = .ok p) {a : ℝ} (ha : altitude p t = some a) :
    (altitudeAt subject (.fin t) altitude out m).1 = .ok ∧
    ∃ x, (altitudeAt subject (.fin t) altitude out m).2.cells out = some (.record x) ∧
      Denotes .radian x a := by
  obtain ⟨h1, h2⟩ := (Ffi.Props.scalar_null_first subject (.fin t) altitude out m).2.2 p t a ho hp rfl ha
  exact ⟨h1, a, h2, rfl⟩

/-- **C200 (finding).** The azimuth is documented to be in degrees, and so is the output's name; what
is written is the number of radians. It is the documented azimuth for a body due north only. -/
theorem azimuth_not_in_degrees {β σ δ : Type} (subject : Subject β σ δ) (t : Rat)
    (azimuth : Verif.Ffi.Provider β σ δ → Rat → Option ℝ) (out : Addr) (m : Mem ℝ) (ho : out ≠ 0)
    {p : Verif.Ffi.Provider β σ δ} (hp : dispatch subject = .ok p) {a : ℝ} (ha : azimuth p t = some a) :
    (azimuthAt subject (.fin t) azimuth out m).1 = .ok ∧
    ∃ x, (azimuthAt subject (.fin t) azimuth out m).2.cells out = some (.record x) ∧
      Denotes .radian x a ∧ (Denotes .degree x a ↔ a = 0) := by
  obtain ⟨h1, h2⟩ := (Ffi.Props.scalar_null_first subject (.fin t) azimuth out m).2.2 p t a ho hp rfl ha
  refine ⟨h1, a, h2, rfl, ?_, ?_⟩
  · intro h
    have h : a * Real.pi = a * 180 := h
    have hpi := Real.pi_lt_four
    by_contra ha
    have := mul_left_cancel₀ ha h
    linarith
  · rintro rfl
    show (0 : ℝ) * Real.pi = 0 * 180
    simp

/-- A body due east: 1.57… is written where 90 is documented. -/
example : ∃ x, (azimuthAt (β := Unit) (σ := Unit) (δ := Unit) (.body ()) (.fin 60000)
    (fun _ _ => some (Real.pi / 2)) 8 ⟨fun _ => none, []⟩).2.cells 8 = some (.record x) ∧
    ¬ Denotes .degree x (Real.pi / 2) := by
  obtain ⟨-, x, hx, -, h⟩ := azimuth_not_in_degrees (β := Unit) (σ := Unit) (δ := Unit) (.body ()) 60000
    (fun _ _ => some (Real.pi / 2)) 8 ⟨fun _ => none, []⟩ (by decide) (p := .body ()) rfl rfl
  exact ⟨x, hx, fun hd => by
    have := h.mp hd
    have := Real.pi_pos
    linarith⟩

/-- **C200.** The records of culminations carry the altitude of the body in degrees and kind 0 exactly
for maxima. -/
theorem culmination_records {Star Direction Planet Site : Type}
    (e : Provider.Engines Star Direction Planet Site) (body : Provider.Body Star Direction Planet)
    (o : Site) {a b tol : ℝ} {fuel : Nat} {l : List Provider.Culmination}
    (h : Provider.culminations fuel e body o a b tol = some l) :
    ∀ r ∈ l.map culminationRecord,
      Denotes .degree r.altitudeDeg (Provider.altitudeAt e o r.mjd body) ∧
      ∃ c ∈ l, c.mjd = r.mjd ∧ (r.kind = 0 ↔ c.kind = .maximum) ∧ (r.kind = 1 ↔ c.kind = .minimum) := by
  intro r hr
  obtain ⟨c, hc, rfl⟩ := List.mem_map.mp hr
  obtain ⟨_, -, -, -, hall⟩ := Provider.culminations_any_body e body o a b tol
  obtain ⟨-, hv, -⟩ := hall fuel l h
  obtain ⟨ha, -⟩ := hv c hc
  refine ⟨?_, c, hc, rfl, ?_, ?_⟩
  · show Denotes .degree c.altitude _
    rw [ha]
    exact denotes_toDeg _
  · cases hk : c.kind <;> simp [culminationRecord, hk]
  · cases hk : c.kind <;> simp [culminationRecord, hk]

/-- **C200.** The records of azimuth extrema carry the azimuth in degrees. -/
theorem extremum_records {az l : ℝ → ℝ} {a b step tol : ℝ} {fuel : Nat}
    (hf : Provider.Spec.Follows az l a b) (hslow : Provider.Spec.Slow l a b (3 * step))
    {es : List Provider.AzimuthExtremum}
    (h : Provider.extremaOf fuel az a b step tol = some es) :
    ∀ r ∈ es.map extremumRecord, Denotes .degree r.azimuthDeg (az r.mjd) ∧
      ∃ x ∈ es, x.mjd = r.mjd ∧ (r.kind = 0 ↔ x.kind = .maximum) ∧ (r.kind = 1 ↔ x.kind = .minimum) := by
  intro r hr
  obtain ⟨x, hx, rfl⟩ := List.mem_map.mp hr
  obtain ⟨-, hall⟩ := Provider.azimuth_extrema_sound fuel tol hf hslow h
  obtain ⟨-, -, hv, -⟩ := hall x hx
  refine ⟨?_, x, hx, rfl, ?_, ?_⟩
  · show Denotes .degree x.azimuth _
    rw [hv]
    exact denotes_toDeg _
  · cases hk : x.kind <;> simp [extremumRecord, hk]
  · cases hk : x.kind <;> simp [extremumRecord, hk]

/-! ### Phases -/

/-- **C201.** The geometry written is that of the Rust function, in radians; nothing is written unless
the call succeeds. -/
theorem phase_written (jd : F64) (geometry : Rat → Option Sky.Geometry) (out : Addr)
    (m : Mem PhaseRecord) :
    ((phaseCall jd geometry out m).1 = .ok ↔ out ≠ 0 ∧ ∃ t g, jd = .fin t ∧ geometry t = some g) ∧
    ((phaseCall jd geometry out m).1 ≠ .ok → (phaseCall jd geometry out m).2 = m) ∧
    ∀ t g, out ≠ 0 → jd = .fin t → geometry t = some g →
      ∃ r, (phaseCall jd geometry out m).2.cells out = some (.record r) ∧
        Denotes .radian r.phaseAngleRad g.phase ∧ Denotes .radian r.elongationRad g.elongation ∧
        r.illuminatedFraction = g.fraction ∧ (r.waxing ≠ 0 ↔ g.waxing = true) := by
  by_cases ho : out = 0
  · simp [phaseCall, Ffi.guard, ho]
  · cases hj : mjdFrom jd with
    | error e =>
      have hne : ∀ t, jd ≠ .fin t := by
        rintro t rfl
        simp [mjdFrom] at hj
      have he : e ≠ .ok := by
        cases jd <;> simp [mjdFrom] at hj <;> subst hj <;> decide
      refine ⟨?_, ?_, ?_⟩
      · simp only [phaseCall, Ffi.guard, if_neg ho, hj]
        constructor
        · intro h; exact absurd h he
        · rintro ⟨-, t, g, ht, -⟩; exact absurd ht (hne t)
      · intro _; simp [phaseCall, Ffi.guard, ho, hj]
      · intro t g _ ht; exact absurd ht (hne t)
    | ok t =>
      have hjd : jd = .fin t := by
        cases jd <;> simp [mjdFrom] at hj
        rw [hj]
      subst hjd
      cases hg : geometry t with
      | none =>
        refine ⟨?_, ?_, ?_⟩
        · simp [phaseCall, Ffi.guard, ho, mjdFrom, hg]
        · intro _; simp [phaseCall, Ffi.guard, ho, mjdFrom, hg]
        · rintro t' g' - ht hg'
          cases ht
          rw [hg] at hg'
          cases hg'
      | some g =>
        refine ⟨?_, ?_, ?_⟩
        · simp [phaseCall, Ffi.guard, ho, mjdFrom, hg]
        · intro h; simp [phaseCall, Ffi.guard, ho, mjdFrom, hg] at h
        · rintro t' g' - ht hg'
          cases ht
          rw [hg] at hg'
          cases hg'
          refine ⟨phaseRecord g, ?_, rfl, rfl, rfl, ?_⟩
          · simp [phaseCall, Ffi.guard, ho, mjdFrom, hg, Mem.store]
          · cases hw : g.waxing <;> simp [phaseRecord, hw]

/-- **C201.** The label of a geometry that went through C is the label Rust gives it, under the number
the header lists it at. -/
theorem label_same (sub add : ℝ → ℝ → ℝ) (fuel : Nat) (g : Sky.Geometry) (out : Addr) (m : Mem Int)
    (ho : out ≠ 0) {l : Label} (hl : label sub add fuel g = some l) :
    ∃ m', labelCall sub add fuel (phaseRecord g) out m = some (.ok, m') ∧
      m'.cells out = some (.record (labelCode l)) := by
  refine ⟨m.store out (.record (labelCode l)), ?_, by simp [Mem.store]⟩
  unfold labelCall
  rw [if_neg ho]
  unfold label at hl
  show Option.map _ (fromElongation sub add fuel (toDeg g.elongation) (45 / 2)) = _
  rw [hl]
  rfl

/-- **C201.** Each label has its own code, which is its place in the order of the lunation. -/
theorem label_codes (l : Label) :
    0 ≤ labelCode l ∧ labelCode l < 8 ∧ (∀ l', labelCode l = labelCode l' → l = l') ∧
    phases[(labelCode l).toNat]? = some (match l with
      | .newMoon => "new moon"
      | .waxingCrescent => "waxing crescent"
      | .firstQuarter => "first quarter"
      | .waxingGibbous => "waxing gibbous"
      | .fullMoon => "full moon"
      | .waningGibbous => "waning gibbous"
      | .lastQuarter => "last quarter"
      | .waningCrescent => "waning crescent") := by
  refine ⟨by cases l <;> decide, by cases l <;> decide, ?_, by cases l <;> decide⟩
  intro l' h
  cases l <;> cases l' <;> first | rfl | (exact absurd h (by decide))

/-- **C201.** In exact arithmetic the label call ends for every elongation given from C, -/
theorem label_call_ends (g : PhaseRecord) (out : Addr) (m : Mem Int) :
    ∃ n, ∀ fuel, n ≤ fuel → ∃ r, labelCall (· - ·) (· + ·) fuel g out m = some r := by
  by_cases ho : out = 0
  · exact ⟨0, fun fuel _ => ⟨_, by rw [labelCall, if_pos ho]⟩⟩
  · obtain ⟨l, ⟨n, hn⟩, -⟩ := Sky.Props.label_total (toDeg g.elongationRad) (45 / 2)
    refine ⟨n, fun fuel hf => ?_⟩
    rw [labelCall, if_neg ho, hn fuel hf]
    exact ⟨_, rfl⟩

/-- **C201 (finding).** but with a subtraction that rounds as `f64` does, a record with a large
elongation (here the one converted to `2^70` degrees) never returns to the caller. -/
theorem label_call_hangs {sub add : ℝ → ℝ → ℝ}
    (h : Sky.Props.RoundsTo ((2 : ℝ) ^ 70 - 360) (sub (2 ^ 70) 360)) (g : PhaseRecord)
    (hg : toDeg g.elongationRad = 2 ^ 70) (out : Addr) (ho : out ≠ 0) (m : Mem Int) (fuel : Nat) :
    labelCall sub add fuel g out m = none := by
  have := Sky.Props.large_elongation_never_finishes h add (45 / 2) fuel
  unfold labelCall
  rw [if_neg ho, hg, this]
  rfl

/-- **C201 (finding).** The searches for phases accept every tolerance, not a number, negative and
infinite ones included, where every search on a subject refuses them: the status depends on the window,
the pointers and the search alone. -/
theorem phase_options_unchecked {ρ α : Type} (A : Alloc) (a b : Rat) (hab : a ≤ b)
    (search : Rat × Rat → F64 → Option (List ρ)) (hs : ∀ w t, (search w t).isSome)
    (conv : ρ → α) (out count : Addr) (ho : out ≠ 0) (hc : count ≠ 0) (m : Mem α) (tol : F64) :
    (phaseSearch A (.fin a) (.fin b) tol search conv out count m).1 = .ok := by
  have h1 := (Ffi.Props.windowFromC_ok (.fin a) (.fin b) a b).2 ⟨rfl, rfl, hab⟩
  obtain ⟨items, hi⟩ := Option.isSome_iff_exists.mp (hs (a, b) tol)
  simp [phaseSearch, Ffi.guard, h1, hi, vecToC, ho, hc]

theorem subject_options_checked {β σ δ ρ α : Type} (A : Alloc) (subject : Subject β σ δ) (a b : Rat)
    (search : Verif.Ffi.Provider β σ δ → Rat × Rat → Rat → Option (List ρ)) (conv : ρ → α)
    (out count : Addr) (m : Mem α) (hab : a ≤ b) {tol : F64} (ht : ∀ t, tol = .fin t → t ≤ 0) :
    (Ffi.searchCall A subject (.fin a) (.fin b) tol search conv out count m).1 = .invalidArgument := by
  have h1 := (Ffi.Props.windowFromC_ok (.fin a) (.fin b) a b).2 ⟨rfl, rfl, hab⟩
  cases tol with
  | fin t => simp [Ffi.searchCall, Ffi.guard, h1, Ffi.optsFromC, ht t rfl]
  | _ => simp [Ffi.searchCall, Ffi.guard, h1, Ffi.optsFromC]

end Verif.Boundary
