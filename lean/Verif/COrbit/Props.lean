import Verif.COrbit.Model

/-
Property C214: orbits from C.
-/
namespace Verif.COrbit
open Verif.Text (Res)
open Verif.Ffi (Status)
open Verif.Orbit
open Verif.Orbit.Spec (radians apart)

/-! ### Specification -/

/-- The elements a C caller means. -/
def Holds (o : CElements) (a e i n p m t : ℝ) : Prop := o = ⟨some a, some e, some i, some n, some p, some m, some t⟩

/-- An ellipse written with its semi-major axis. -/
def Ellipse (o : CElements) : Prop := ∃ a e i n p m t, Holds o a e i n p m t ∧ 0 < a ∧ 0 ≤ e ∧ e < 1

/-- An ellipse with a mean motion. -/
def Moving (o : CElements) : Prop := ∃ a e i n p m t, Holds o a e i n p m t ∧ 0 < a ∧ 0 ≤ e ∧ e < 1 ∧ 0 < m

/-- An ellipse or hyperbola written with its periapsis distance. -/
def NoParabola (o : CElements) : Prop := ∃ q e i n p m t, Holds o q e i n p m t ∧ 0 < q ∧ 0 ≤ e ∧ e ≠ 1

/-! ### What is accepted -/

theorem six_some {o : CElements} {r : ℝ × ℝ × ℝ × ℝ × ℝ × ℝ} : o.six = some r ↔
    o.size = some r.1 ∧ o.ecc = some r.2.1 ∧ o.inc = some r.2.2.1 ∧ o.node = some r.2.2.2.1 ∧ o.peri = some r.2.2.2.2.1
      ∧ o.phase = some r.2.2.2.2.2 := by
  obtain ⟨a, e, i, n, p, m, t⟩ := o
  unfold CElements.six
  dsimp only
  cases a <;> cases e <;> cases i <;> cases n <;> cases p <;> cases m <;> simp [Prod.ext_iff]

theorem holds_of {o : CElements} {r : ℝ × ℝ × ℝ × ℝ × ℝ × ℝ} {t : ℝ} (h : o.six = some r) (ht : o.epoch = some t) :
    Holds o r.1 r.2.1 r.2.2.1 r.2.2.2.1 r.2.2.2.2.1 r.2.2.2.2.2 t := by
  rw [six_some] at h
  obtain ⟨a, e, i, n, p, m, u⟩ := o
  simp only at h ht
  obtain ⟨rfl, rfl, rfl, rfl, rfl, rfl⟩ := h
  subst ht
  rfl

theorem six_holds {o : CElements} {a e i n p m t : ℝ} (h : Holds o a e i n p m t) :
    o.six = some (a, e, i, n, p, m) ∧ o.epoch = some t := by
  subst h
  exact ⟨rfl, rfl⟩

/-- Reduces a claim about an acceptance test to one about seven numbers. -/
theorem numbers (o : CElements) : (∃ a e i n p m t, Holds o a e i n p m t) ∨ o.six = none ∨ o.epoch = none := by
  cases h : o.six with
  | none => exact .inr (.inl rfl)
  | some r =>
    cases ht : o.epoch with
    | none => exact .inr (.inr rfl)
    | some t => exact .inl ⟨_, _, _, _, _, _, _, holds_of h ht⟩

theorem not_numbers {o : CElements} (h : o.six = none ∨ o.epoch = none) (a e i n p m t : ℝ) : ¬ Holds o a e i n p m t := by
  intro hh
  obtain ⟨h1, h2⟩ := six_holds hh
  rcases h with h | h
  · rw [h] at h1; cases h1
  · rw [h] at h2; cases h2

/-- **C214.** A prepared orbit is made of exactly the ellipses; the handle holds just those elements. Everything else is an
invalid argument. -/
theorem prepared_iff (o : CElements) :
    preparedCreate o false = .error .nullPointer
      ∧ (Ellipse o → ∃ a e i n p m t, Holds o a e i n p m t
          ∧ preparedCreate o true = .ok (Prepared.of ⟨a, e, i, n, p, m, t⟩))
      ∧ (¬ Ellipse o → preparedCreate o true = .error .invalidArgument) := by
  refine ⟨rfl, ?_, ?_⟩
  · rintro ⟨a, e, i, n, p, m, t, h, ha, h0, h1⟩
    refine ⟨a, e, i, n, p, m, t, h, ?_⟩
    subst h
    have := (elements_validated ⟨a, e, i, n, p, m, t⟩).1.mpr ⟨ha, h0, h1⟩
    unfold preparedCreate Prepared.tryFromElements
    simp [jdFrom, CElements.six, this, Except.map]
  · intro hn
    rcases numbers o with ⟨a, e, i, n, p, m, t, h⟩ | h
    · have hv : ¬ (⟨a, e, i, n, p, m, t⟩ : Elements).Valid := fun hv => hn ⟨a, e, i, n, p, m, t, h, hv⟩
      subst h
      cases ht : (⟨a, e, i, n, p, m, t⟩ : Elements).tryNew with
      | ok r =>
        have := (elements_validated _).2 r ht
        subst this
        exact absurd ((elements_validated _).1.mp ht) hv
      | error x =>
        unfold preparedCreate Prepared.tryFromElements
        simp [jdFrom, CElements.six, ht, Except.map]
    · unfold preparedCreate jdFrom
      rcases h with h | h
      · rw [h]; cases o.epoch <;> rfl
      · rw [h]; rfl

theorem sma_ok {a e : ℝ} : checkSma a e = .ok () ↔ 0 < a ∧ 0 ≤ e ∧ e < 1 := by
  have := (elements_validated ⟨a, e, 0, 0, 0, 0, 0⟩).1
  unfold Elements.tryNew Elements.Valid at this
  dsimp only at this
  rw [← this]
  cases checkSma a e <;> simp [Except.map]

theorem mean_of_iff (o : CElements) :
    (Moving o → ∃ a e i n p m t, Holds o a e i n p m t ∧ meanMotionOf o = .ok ⟨a, e, i, n, p, m, t⟩)
      ∧ (¬ Moving o → meanMotionOf o = .error .invalidArgument) := by
  refine ⟨?_, ?_⟩
  · rintro ⟨a, e, i, n, p, m, t, h, ha, h0, h1, hm⟩
    refine ⟨a, e, i, n, p, m, t, h, ?_⟩
    subst h
    have := sma_ok.mpr ⟨ha, h0, h1⟩
    unfold meanMotionOf MeanMotion.tryNew
    simp [jdFrom, CElements.six, this, not_le.mpr hm]
  · intro hn
    rcases numbers o with ⟨a, e, i, n, p, m, t, h⟩ | h
    · have hv : ¬ (0 < a ∧ 0 ≤ e ∧ e < 1 ∧ 0 < m) := fun hv => hn ⟨a, e, i, n, p, m, t, h, hv⟩
      subst h
      unfold meanMotionOf MeanMotion.tryNew
      cases hc : checkSma a e with
      | error x => simp [jdFrom, CElements.six, hc]
      | ok u =>
        have hs := sma_ok.mp hc
        have hm : m ≤ 0 := by
          by_contra hm
          exact hv ⟨hs.1, hs.2.1, hs.2.2, not_le.mp hm⟩
        simp [jdFrom, CElements.six, hc, hm]
    · unfold meanMotionOf jdFrom
      rcases h with h | h
      · rw [h]; cases o.epoch <;> rfl
      · rw [h]

theorem conic_new {o : Conic} : (o.tryNew = .ok o ↔ 0 < o.q ∧ 0 ≤ o.e ∧ o.e ≠ 1)
    ∧ ((∃ x, o.tryNew = .error x) ↔ ¬ (0 < o.q ∧ 0 ≤ o.e ∧ o.e ≠ 1)) := by
  unfold Conic.tryNew
  split
  · rename_i h
    simp; intro _ h'; linarith
  · split
    · rename_i h1 h
      simp; intro h'; linarith
    · split
      · rename_i h; simp [h]
      · rename_i h1 h2 h3
        simp [h3, not_lt.mp h1, not_le.mp h2]

theorem conic_of_iff (o : CElements) :
    (NoParabola o → ∃ q e i n p m t, Holds o q e i n p m t ∧ conicOf o = .ok ⟨q, e, i, n, p, m, t⟩)
      ∧ (¬ NoParabola o → conicOf o = .error .invalidArgument) := by
  refine ⟨?_, ?_⟩
  · rintro ⟨q, e, i, n, p, m, t, h, hv⟩
    refine ⟨q, e, i, n, p, m, t, h, ?_⟩
    subst h
    have := (conic_new (o := ⟨q, e, i, n, p, m, t⟩)).1.mpr hv
    unfold conicOf
    simp [jdFrom, CElements.six, this]
  · intro hn
    rcases numbers o with ⟨q, e, i, n, p, m, t, h⟩ | h
    · have hv : ¬ (0 < q ∧ 0 ≤ e ∧ e ≠ 1) := fun hv => hn ⟨q, e, i, n, p, m, t, h, hv⟩
      subst h
      obtain ⟨x, hx⟩ := (conic_new (o := ⟨q, e, i, n, p, m, t⟩)).2.mpr hv
      unfold conicOf
      simp [jdFrom, CElements.six, hx]
    · unfold conicOf jdFrom
      rcases h with h | h
      · rw [h]; cases o.epoch <;> rfl
      · rw [h]

/-- **C214.** What is refused, in the order of the checks: a null pointer, elements that are no such orbit, a date that is
no number. -/
theorem refused (s : Solver) (o : CElements) (date : Option ℝ) :
    meanMotion s o date false = (.nullPointer, none) ∧ conic s o date false = (.nullPointer, none)
      ∧ (¬ Moving o → meanMotion s o date true = (.invalidArgument, none))
      ∧ (¬ NoParabola o → conic s o date true = (.invalidArgument, none))
      ∧ meanMotion s o none true = (.invalidArgument, none) ∧ conic s o none true = (.invalidArgument, none)
      ∧ (∀ h out, preparedPositionC s h none out = (.nullPointer, none) ∨ preparedPositionC s h none out = (.invalidArgument, none)) := by
  refine ⟨rfl, rfl, fun h => ?_, fun h => ?_, ?_, ?_, fun h out => ?_⟩
  · simp [meanMotion, (mean_of_iff o).2 h]
  · simp [conic, (conic_of_iff o).2 h]
  · by_cases h : Moving o
    · obtain ⟨_, _, _, _, _, _, _, _, h⟩ := (mean_of_iff o).1 h
      simp [meanMotion, h, jdFrom]
    · simp [meanMotion, (mean_of_iff o).2 h]
  · by_cases h : NoParabola o
    · obtain ⟨_, _, _, _, _, _, _, _, h⟩ := (conic_of_iff o).1 h
      simp [conic, h, jdFrom]
    · simp [conic, (conic_of_iff o).2 h]
  · cases h <;> cases out <;> simp [preparedPositionC, jdFrom]

/-! ### What is answered -/

/-- **C214.** An ellipse prepared from C answers for every date, in AU around the Sun, with a position on the Newtonian orbit
of these elements, up to what the solver leaves. -/
theorem prepared_orbit {s : Solver} {τ : ℝ} (hs : s.Elliptic τ) {o : CElements} {a e i n p m t : ℝ}
    (h : Holds o a e i n p m t) (ha : 0 < a) (h0 : 0 ≤ e) (h1 : e < 1) :
    ∃ r pos vel, preparedCreate o true = .ok r
      ∧ Spec.Orbit ((2 * Real.pi / 365.256898326) ^ 2) (a * (1 - e)) e (radians i) (radians n) (radians p)
          (periapsisTime ((2 * Real.pi / 365.256898326) ^ 2) a (radians m) t) pos vel
      ∧ ∀ jd, ∃ v, preparedPositionC s (some r) (some jd) true = (.ok, some ⟨v, .helio⟩)
          ∧ apart v (pos jd) ≤ a * (τ / (1 - e)) := by
  obtain ⟨a', e', i', n', p', m', t', h', hc⟩ := (prepared_iff o).2.1 ⟨a, e, i, n, p, m, t, h, ha, h0, h1⟩
  subst h
  simp only [Holds, CElements.mk.injEq, Option.some.injEq] at h'
  obtain ⟨rfl, rfl, rfl, rfl, rfl, rfl, rfl⟩ := h'
  obtain ⟨pos, vel, ho, hp⟩ := kepler_is_orbit hs (o := ⟨a, e, i, n, p, m, t⟩) ⟨ha, h0, h1⟩
  refine ⟨_, pos, vel, hc, ho, fun jd => ?_⟩
  obtain ⟨v, hv, hd⟩ := hp jd
  refine ⟨v, ?_, hd⟩
  unfold keplerPosition at hv
  simp [preparedPositionC, jdFrom, hv, finish]

/-- **C214.** The function that takes the elements at each call gives, for an ellipse, the same position as the prepared
orbit, with the centre the caller named. -/
theorem kepler_as_prepared {s : Solver} {τ : ℝ} (hs : s.Elliptic τ) (odd : CElements → ℝ → Res Status V) {o : CElements}
    (ho : Ellipse o) {k : Nat} {c : Centre} (hk : centreOf k = some c) (jd : ℝ) :
    ∃ r v, preparedCreate o true = .ok r ∧ preparedPositionC s (some r) (some jd) true = (.ok, some ⟨v, .helio⟩)
      ∧ keplerEx s odd o k (some jd) true = (.ok, some ⟨v, c⟩) := by
  obtain ⟨a, e, i, n, p, m, t, h, ha, h0, h1⟩ := ho
  obtain ⟨a', e', i', n', p', m', t', h', hc⟩ := (prepared_iff o).2.1 ⟨a, e, i, n, p, m, t, h, ha, h0, h1⟩
  subst h
  simp only [Holds, CElements.mk.injEq, Option.some.injEq] at h'
  obtain ⟨rfl, rfl, rfl, rfl, rfl, rfl, rfl⟩ := h'
  obtain ⟨pos, vel, -, hp⟩ := kepler_is_orbit hs (o := ⟨a, e, i, n, p, m, t⟩) ⟨ha, h0, h1⟩
  obtain ⟨v, hv, -⟩ := hp jd
  refine ⟨_, v, hc, ?_, ?_⟩
  · have hv' := hv
    unfold keplerPosition at hv'
    simp [preparedPositionC, jdFrom, hv', finish]
  · simp [keplerEx, hk, jdFrom, CElements.six, hv, finish]

/-- **C214.** The same for mean-motion orbits: the epoch is a periapsis passage. -/
theorem mean_orbit {s : Solver} {τ : ℝ} (hs : s.Elliptic τ) {o : CElements} {a e i n p m t : ℝ}
    (h : Holds o a e i n p m t) (ha : 0 < a) (h0 : 0 ≤ e) (h1 : e < 1) (hm : 0 < m) :
    ∃ pos vel, Spec.Orbit ((m * Real.pi / 180) ^ 2 * a ^ 3) (a * (1 - e)) e (radians i) (radians n) (radians p) t pos vel
      ∧ ∀ jd, ∃ v, meanMotion s o (some jd) true = (.ok, some ⟨v, .helio⟩) ∧ apart v (pos jd) ≤ a * (τ / (1 - e)) := by
  obtain ⟨a', e', i', n', p', m', t', h', hc⟩ := (mean_of_iff o).1 ⟨a, e, i, n, p, m, t, h, ha, h0, h1, hm⟩
  subst h
  simp only [Holds, CElements.mk.injEq, Option.some.injEq] at h'
  obtain ⟨rfl, rfl, rfl, rfl, rfl, rfl, rfl⟩ := h'
  obtain ⟨pos, vel, ho, hp⟩ := mean_motion_is_orbit hs (o := ⟨a, e, i, n, p, m, t⟩) ha h0 h1 hm
  refine ⟨pos, vel, ho, fun jd => ?_⟩
  obtain ⟨v, hv, hd⟩ := hp jd
  exact ⟨v, by simp [meanMotion, hc, jdFrom, hv, finish], hd⟩

/-- **C214.** The same for ellipses given by the periapsis distance. -/
theorem conic_ellipse {s : Solver} {τ : ℝ} (hs : s.Elliptic τ) {o : CElements} {q e i n p m t : ℝ}
    (h : Holds o q e i n p m t) (hq : 0 < q) (h0 : 0 ≤ e) (h1 : e < 1) :
    ∃ pos vel, Spec.Orbit (0.01720209895 ^ 2) q e (radians i) (radians n) (radians p)
        (periapsisTime (0.01720209895 ^ 2) (q / (1 - e)) (radians m) t) pos vel
      ∧ ∀ jd, ∃ v, conic s o (some jd) true = (.ok, some ⟨v, .helio⟩)
          ∧ apart v (pos jd) ≤ q / (1 - e) * (τ / (1 - e)) := by
  obtain ⟨a', e', i', n', p', m', t', h', hc⟩ := (conic_of_iff o).1 ⟨q, e, i, n, p, m, t, h, hq, h0, h1.ne⟩
  subst h
  simp only [Holds, CElements.mk.injEq, Option.some.injEq] at h'
  obtain ⟨rfl, rfl, rfl, rfl, rfl, rfl, rfl⟩ := h'
  obtain ⟨pos, vel, ho, hp⟩ := conic_elliptic_is_orbit hs (o := ⟨q, e, i, n, p, m, t⟩) hq h0 h1
  refine ⟨pos, vel, ho, fun jd => ?_⟩
  obtain ⟨v, hv, hd⟩ := hp jd
  exact ⟨v, by simp [conic, hc, jdFrom, hv, finish], hd⟩

/-- **C214.** For hyperbolas every position written is on one Newtonian orbit; a date the solver fails at is refused. -/
theorem conic_hyperbola {s : Solver} (hs : s.Hyperbolic) {o : CElements} {q e i n p m t : ℝ}
    (h : Holds o q e i n p m t) (hq : 0 < q) (h1 : 1 < e) :
    ∃ pos vel, Spec.Orbit (0.01720209895 ^ 2) q e (radians i) (radians n) (radians p)
        (periapsisTime (0.01720209895 ^ 2) (q / (e - 1)) (radians m) t) pos vel
      ∧ ∀ jd, conic s o (some jd) true = (.ok, some ⟨pos jd, .helio⟩) ∨ conic s o (some jd) true = (.invalidArgument, none) := by
  obtain ⟨a', e', i', n', p', m', t', h', hc⟩ := (conic_of_iff o).1 ⟨q, e, i, n, p, m, t, h, hq, by linarith, h1.ne'⟩
  subst h
  simp only [Holds, CElements.mk.injEq, Option.some.injEq] at h'
  obtain ⟨rfl, rfl, rfl, rfl, rfl, rfl, rfl⟩ := h'
  obtain ⟨pos, vel, ho, hp⟩ := conic_hyperbolic_is_orbit hs (o := ⟨q, e, i, n, p, m, t⟩) hq h1
  refine ⟨pos, vel, ho, fun jd => ?_⟩
  rcases hp jd with hv | hv
  · left; simp [conic, hc, jdFrom, hv, finish]
  · right; simp [conic, hc, jdFrom, hv, finish]

/-- **C214.** A position is written exactly with the status of success. -/
theorem written_iff (s : Solver) (odd : CElements → ℝ → Res Status V)
    (hodd : ∀ o jd, odd o jd ≠ .err .ok) (o : CElements) (k : Nat) (date : Option ℝ) (h : Option Prepared) (out : Bool) :
    ((keplerEx s odd o k date out).1 = .ok ↔ (keplerEx s odd o k date out).2.isSome)
      ∧ ((meanMotion s o date out).1 = .ok ↔ (meanMotion s o date out).2.isSome)
      ∧ ((conic s o date out).1 = .ok ↔ (conic s o date out).2.isSome)
      ∧ ((preparedPositionC s h date out).1 = .ok ↔ (preparedPositionC s h date out).2.isSome) := by
  have hf : ∀ c r, r ≠ Res.err Status.ok → ((finish c r).1 = .ok ↔ (finish c r).2.isSome) := by
    intro c r hr
    cases r with
    | ok v => simp [finish]
    | err x => simp only [finish, Option.isSome_none, Bool.false_eq_true, iff_false]; rintro rfl; exact hr rfl
    | panic => simp [finish]
  have hj : ∀ x, (∃ y, jdFrom x = .ok y) ∨ jdFrom x = .error .invalidArgument := by
    intro x; cases x <;> simp [jdFrom]
  refine ⟨?_, ?_, ?_, ?_⟩
  · cases out
    · simp [keplerEx]
    · cases hc : centreOf k with
      | none => simp [keplerEx, hc]
      | some c =>
        rcases hj o.epoch with ⟨t, ht⟩ | ht
        · rcases hj date with ⟨jd, hd⟩ | hd
          · cases h6 : o.six with
            | none => simpa [keplerEx, hc, ht, hd, h6] using hf c _ (hodd o jd)
            | some r =>
              simp only [keplerEx, Bool.not_true, Bool.false_eq_true, if_false, hc, ht, hd, h6]
              cases keplerPosition s ⟨r.1, r.2.1, r.2.2.1, r.2.2.2.1, r.2.2.2.2.1, r.2.2.2.2.2, t⟩ jd <;> exact hf _ _ (by simp)
          · simp [keplerEx, hc, ht, hd]
        · simp [keplerEx, hc, ht]
  · cases out
    · simp [meanMotion]
    · by_cases hm : Moving o
      · obtain ⟨a, e, i, n, p, m, t, -, hc⟩ := (mean_of_iff o).1 hm
        rcases hj date with ⟨jd, hd⟩ | hd
        · simp only [meanMotion, Bool.not_true, Bool.false_eq_true, if_false, hc, hd]
          cases meanMotionPosition s ⟨a, e, i, n, p, m, t⟩ jd <;> exact hf _ _ (by simp)
        · simp [meanMotion, hc, hd]
      · simp [meanMotion, (mean_of_iff o).2 hm]
  · cases out
    · simp [conic]
    · by_cases hm : NoParabola o
      · obtain ⟨a, e, i, n, p, m, t, -, hc⟩ := (conic_of_iff o).1 hm
        rcases hj date with ⟨jd, hd⟩ | hd
        · simp only [conic, Bool.not_true, Bool.false_eq_true, if_false, hc, hd]
          cases conicPosition s ⟨a, e, i, n, p, m, t⟩ jd <;> exact hf _ _ (by simp)
        · simp [conic, hc, hd]
      · simp [conic, (conic_of_iff o).2 hm]
  · cases h with
    | none => simp [preparedPositionC]
    | some p =>
      cases out
      · simp [preparedPositionC]
      · rcases hj date with ⟨jd, hd⟩ | hd
        · simp only [preparedPositionC, Bool.not_true, Bool.false_eq_true, if_false, hd]
          cases preparedPosition s p jd <;> exact hf _ _ (by simp)
        · simp [preparedPositionC, hd]

/-! ### Findings -/

/-- **C214 (finding).** The function that takes the elements at each call does not look at them: an open orbit, which the
prepared orbit refuses as an invalid argument, makes it fail with an internal panic at every date, when the solver refuses
eccentricities from one on. -/
theorem open_orbit_panics {s : Solver} (hrej : ∀ M e, 1 ≤ e → s.eccentric M e = none)
    (odd : CElements → ℝ → Res Status V) {o : CElements} {a e i n p m t : ℝ} (h : Holds o a e i n p m t) (he : 1 ≤ e)
    {k : Nat} {c : Centre} (hk : centreOf k = some c) (jd : ℝ) :
    preparedCreate o true = .error .invalidArgument ∧ keplerEx s odd o k (some jd) true = (.internalPanic, none) := by
  refine ⟨(prepared_iff o).2.2 ?_, ?_⟩
  · rintro ⟨a', e', i', n', p', m', t', h', -, -, h1⟩
    subst h
    simp only [Holds, CElements.mk.injEq, Option.some.injEq] at h'
    obtain ⟨rfl, rfl, rfl, rfl, rfl, rfl, rfl⟩ := h'
    linarith
  · subst h
    simp [keplerEx, hk, jdFrom, CElements.six, keplerPosition, preparedPosition, solveElliptic, Prepared.of, hrej _ _ he,
      Res.bind, finish]

/-- **C214 (finding).** Whatever centre the caller names, the numbers are the same: those of an orbit around the Sun. -/
theorem centre_ignored (s : Solver) (odd : CElements → ℝ → Res Status V) (o : CElements) {k l : Nat} {c d : Centre}
    (hk : centreOf k = some c) (hl : centreOf l = some d) (date : Option ℝ) (out : Bool) :
    (keplerEx s odd o k date out).1 = (keplerEx s odd o l date out).1
      ∧ (keplerEx s odd o k date out).2.map CPos.xyz = (keplerEx s odd o l date out).2.map CPos.xyz := by
  have hf : ∀ r, (finish c r).1 = (finish d r).1 ∧ (finish c r).2.map CPos.xyz = (finish d r).2.map CPos.xyz := by
    intro r; cases r <;> simp [finish]
  cases out
  · simp [keplerEx]
  · simp only [keplerEx, hk, hl, Bool.not_true, Bool.false_eq_true, if_false]
    cases jdFrom o.epoch with
    | error x => simp
    | ok t =>
      cases jdFrom date with
      | error x => simp
      | ok jd =>
        cases o.six with
        | none => exact hf _
        | some r =>
          dsimp only
          cases keplerPosition s ⟨r.1, r.2.1, r.2.2.1, r.2.2.2.1, r.2.2.2.2.1, r.2.2.2.2.2, t⟩ jd <;> exact hf _

/-! ### Concrete cases -/

/-- Halley's comet, with its periapsis distance. -/
example : ∃ pos vel, Spec.Orbit (0.01720209895 ^ 2) 0.586 0.967 (radians 162) (radians 58) (radians 111)
      (periapsisTime (0.01720209895 ^ 2) (0.586 / (1 - 0.967)) (radians 38) 2449400) pos vel
    ∧ ∀ jd, ∃ v, conic exactSolver ⟨some 0.586, some 0.967, some 162, some 58, some 111, some 38, some 2449400⟩ (some jd) true
          = (.ok, some ⟨v, .helio⟩) ∧ apart v (pos jd) ≤ 0.586 / (1 - 0.967) * (0 / (1 - 0.967)) :=
  conic_ellipse exactSolver_elliptic rfl (by norm_num) (by norm_num) (by norm_num)

/-- An orbit with eccentricity 1.2 is no ellipse, and a good hyperbola. -/
example : preparedCreate ⟨some 1, some 1.2, some 0, some 0, some 0, some 0, some 0⟩ true = .error .invalidArgument
    ∧ NoParabola ⟨some 1, some 1.2, some 0, some 0, some 0, some 0, some 0⟩ := by
  refine ⟨(prepared_iff _).2.2 ?_, 1, 1.2, 0, 0, 0, 0, 0, rfl, by norm_num, by norm_num, by norm_num⟩
  rintro ⟨a, e, i, n, p, m, t, h, -, -, h1⟩
  simp only [Holds, CElements.mk.injEq, Option.some.injEq] at h
  rw [← h.2.1] at h1
  norm_num at h1

/-- Elements with a NaN are refused. -/
example : preparedCreate ⟨some 1, some 0.1, none, some 0, some 0, some 0, some 0⟩ true = .error .invalidArgument := rfl

/-- A solver that refuses open orbits, as the finding asks for. -/
example : ∃ s : Solver, s.Elliptic 0 ∧ ∀ M e, 1 ≤ e → s.eccentric M e = none := by
  classical
  refine ⟨⟨fun M e => if e < 1 then exactSolver.eccentric M e else none, exactSolver.hyperbolic⟩, ?_, ?_⟩
  · intro M e h0 h1
    dsimp only
    rw [if_pos h1]
    exact exactSolver_elliptic M e h0 h1
  · intro M e h
    exact if_neg (not_lt.mpr h)

end Verif.COrbit
