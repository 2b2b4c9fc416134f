import Verif.RootFinding.Lemmas

namespace Verif.RootFinding
open Spec

variable {F : Type} [Field F] [LinearOrder F] [IsStrictOrderedRing F]

/-- The constant is close enough to the golden ratio conjugate. -/
structure GoldenConst (ph : F) : Prop where
  lb : 3 / 5 < ph
  ub : ph < 31 / 50
  quad : |ph ^ 2 + ph - 1| ≤ 4 / 10 ^ 16

theorem phi_golden : GoldenConst (phi : F) := by
  refine ⟨by unfold phi; norm_num, by unfold phi; norm_num, ?_⟩
  rw [abs_le]
  constructor <;> (unfold phi; norm_num)

/-- All four points lie in `[lo, hi]` in whatever order they are. -/
structure Hull (lo hi : F) (s : GoldenState F) : Prop where
  lo_mem : s.lo ∈ Set.Icc lo hi
  hi_mem : s.hi ∈ Set.Icc lo hi
  x1_mem : s.x1 ∈ Set.Icc lo hi
  x2_mem : s.x2 ∈ Set.Icc lo hi

theorem convex_mem {l h x y t : F} (hx : x ∈ Set.Icc l h) (hy : y ∈ Set.Icc l h)
    (h0 : 0 ≤ t) (h1 : t ≤ 1) : x + t * (y - x) ∈ Set.Icc l h := by
  constructor
  · nlinarith [hx.1, hy.1, mul_nonneg h0 (sub_nonneg.mpr hy.1),
      mul_nonneg (sub_nonneg.mpr h1) (sub_nonneg.mpr hx.1)]
  · nlinarith [hx.2, hy.2, mul_nonneg h0 (sub_nonneg.mpr hy.2),
      mul_nonneg (sub_nonneg.mpr h1) (sub_nonneg.mpr hx.2)]

theorem goldenStep_hull {ph : F} (h0 : 0 ≤ ph) (h1 : ph ≤ 1) (f : F → F) {lo hi : F}
    {s : GoldenState F} (h : Hull lo hi s) : Hull lo hi (goldenStep ph f s) := by
  unfold goldenStep
  split
  · refine ⟨h.lo_mem, h.x2_mem, ?_, h.x1_mem⟩
    have := convex_mem h.x2_mem h.lo_mem h0 h1
    dsimp only
    convert this using 1
    ring
  · refine ⟨h.x1_mem, h.hi_mem, h.x2_mem, ?_⟩
    exact convex_mem h.x1_mem h.hi_mem h0 h1

theorem goldenLoop_hull {ph : F} (h0 : 0 ≤ ph) (h1 : ph ≤ 1) (f : F → F) (tol : F) {lo hi : F}
    (n : Nat) : ∀ s : GoldenState F, Hull lo hi s → Hull lo hi (goldenLoop ph f tol n s) := by
  induction n with
  | zero => intro s h; exact h
  | succ n ih =>
    intro s h
    unfold goldenLoop
    split
    · exact h
    · exact ih _ (goldenStep_hull h0 h1 f h)

theorem goldenInit_hull {ph : F} (h0 : 0 ≤ ph) (h1 : ph ≤ 1) (f : F → F) {lo hi : F}
    (h : lo ≤ hi) : Hull lo hi (goldenInit ph f lo hi) := by
  have hl : lo ∈ Set.Icc lo hi := ⟨le_rfl, h⟩
  have hh : hi ∈ Set.Icc lo hi := ⟨h, le_rfl⟩
  refine ⟨hl, hh, ?_, ?_⟩
  · have := convex_mem hh hl h0 h1
    unfold goldenInit
    dsimp only
    convert this using 1
    ring
  · have := convex_mem hl hh h0 h1
    unfold goldenInit
    dsimp only
    convert this using 1
    ring

/-- The bookkeeping of the search: how far the two probes are from their ideal places, measured
against the initial length `L0`. -/
structure Track (ph : F) (f : F → F) (L0 : F) (s : GoldenState F) : Prop where
  len : 0 ≤ s.hi - s.lo
  f1_eq : s.f1 = f s.x1
  f2_eq : s.f2 = f s.x2
  one : s.x1 = s.hi - ph * (s.hi - s.lo) ∨ s.x2 = s.lo + ph * (s.hi - s.lo)
  drift : |s.x1 - (s.hi - ph * (s.hi - s.lo))| + |s.x2 - (s.lo + ph * (s.hi - s.lo))| +
    16 / 10 ^ 16 * (s.hi - s.lo) ≤ 16 / 10 ^ 16 * L0

theorem goldenInit_track {ph : F} (f : F → F) {lo hi : F} (h : lo ≤ hi) :
    Track ph f (hi - lo) (goldenInit ph f lo hi) := by
  unfold goldenInit
  refine ⟨by dsimp only; linarith, rfl, rfl, Or.inl (by dsimp only; ring), ?_⟩
  dsimp only
  have e1 : hi - (hi - lo) * ph - (hi - ph * (hi - lo)) = 0 := by ring
  have e2 : lo + (hi - lo) * ph - (lo + ph * (hi - lo)) = 0 := by ring
  rw [e1, e2]; simp

set_option maxHeartbeats 1000000 in
/-- One step in the regime where the interval is not yet tiny. -/
theorem goldenStep_track {ph : F} (hp : GoldenConst ph) {f : F → F} {L0 a b m : F}
    {s : GoldenState F} (hT : Track ph f L0 s) (hH : Hull a b s) (hv : Valley f a b m)
    (hm : s.lo ≤ m ∧ m ≤ s.hi) (hbig : 1 / 10 ^ 13 * L0 ≤ s.hi - s.lo) (hL0 : 0 < L0) :
    Track ph f L0 (goldenStep ph f s) ∧
    (let s' := goldenStep ph f s
     s'.lo ≤ m ∧ m ≤ s'.hi ∧ s'.hi - s'.lo ≤ 67 / 100 * (s.hi - s.lo)) := by
  obtain ⟨hp1, hp2, hq⟩ := hp
  obtain ⟨hlen, hf1, hf2, hone, hdr⟩ := hT
  set L := s.hi - s.lo with hL
  set D1 := s.x1 - (s.hi - ph * L) with hD1
  set D2 := s.x2 - (s.lo + ph * L) with hD2
  have a1 := abs_nonneg D1
  have a2 := abs_nonneg D2
  have hLpos : 0 < L := by
    have : (0 : F) < 1 / 10 ^ 13 * L0 := by positivity
    linarith
  have hD : |D1| + |D2| ≤ L / 20 := by
    have : 16 / 10 ^ 16 * L0 ≤ L / 20 := by
      have : (16 : F) / 10 ^ 16 * L0 ≤ (1 / 10 ^ 13 * L0) / 20 := by
        have h : (16 : F) / 10 ^ 16 ≤ 1 / 10 ^ 13 / 20 := by norm_num
        nlinarith
      linarith
    have : (0 : F) ≤ 16 / 10 ^ 16 * L := by positivity
    linarith
  have b1 := abs_le.mp (le_refl |D1|)
  have b2 := abs_le.mp (le_refl |D2|)
  have hphL1 : 3 / 5 * L < ph * L := by nlinarith
  have hphL2 : ph * L < 31 / 50 * L := by nlinarith
  have hlt : s.x1 < s.x2 := by
    have : s.x2 - s.x1 = 2 * (ph * L) - L + D2 - D1 := by rw [hD1, hD2, hL]; ring
    linarith
  obtain ⟨_, _, hanti, hmono⟩ := hv
  obtain ⟨q1, q2⟩ := abs_le.mp hq
  unfold goldenStep
  split
  · rename_i hlt12
    rw [hf1, hf2] at hlt12
    have hm2 : m ≤ s.x2 := by
      by_contra hcon
      push Not at hcon
      have := hanti ⟨hH.x1_mem.1, (hlt.trans hcon).le⟩ ⟨hH.x2_mem.1, hcon.le⟩ hlt
      exact absurd this (not_lt.mpr hlt12.le)
    have hL' : s.x2 - s.lo = ph * L + D2 := by rw [hD2]; ring
    refine ⟨⟨?_, rfl, hf1, Or.inl rfl, ?_⟩, hm.1, hm2, ?_⟩
    · dsimp only; rw [hL']; linarith
    · dsimp only
      rw [hL']
      have e1 : s.x2 - ph * (ph * L + D2) - (s.x2 - ph * (ph * L + D2)) = 0 := by ring
      have e2 : s.x1 - (s.lo + ph * (ph * L + D2)) =
          -((ph ^ 2 + ph - 1) * L) + (D1 - ph * D2) := by
        have : s.x1 = D1 + (s.hi - ph * L) := by rw [hD1]; ring
        rw [this]
        have : s.hi = L + s.lo := by rw [hL]; ring
        rw [this]; ring
      rw [e1, e2, abs_zero, zero_add]
      have t1 : |-((ph ^ 2 + ph - 1) * L) + (D1 - ph * D2)| ≤ 4 / 10 ^ 16 * L + (|D1| + |D2|) := by
        refine (abs_add_le _ _).trans ?_
        refine add_le_add ?_ ?_
        · rw [abs_neg, abs_mul, abs_of_pos hLpos]
          exact mul_le_mul_of_nonneg_right hq hLpos.le
        · refine (abs_sub _ _).trans ?_
          rw [abs_mul, abs_of_pos (by linarith : (0 : F) < ph)]
          nlinarith
      have t2 : ph * L + D2 ≤ 67 / 100 * L := by linarith
      have t3 : (16 : F) / 10 ^ 16 * (ph * L + D2) ≤ 16 / 10 ^ 16 * (67 / 100 * L) :=
        mul_le_mul_of_nonneg_left t2 (by positivity)
      have t4 : (4 : F) / 10 ^ 16 * L + 16 / 10 ^ 16 * (67 / 100 * L) ≤ 16 / 10 ^ 16 * L := by
        have : (4 : F) / 10 ^ 16 * L + 16 / 10 ^ 16 * (67 / 100 * L) =
          (4 / 10 ^ 16 + 16 / 10 ^ 16 * (67 / 100)) * L := by ring
        rw [this]
        exact mul_le_mul_of_nonneg_right (by norm_num) hLpos.le
      linarith
    · dsimp only; rw [hL']; linarith
  · rename_i hlt12
    rw [hf1, hf2] at hlt12
    have hm2 : s.x1 ≤ m := by
      by_contra hcon
      push Not at hcon
      exact hlt12 (hmono ⟨hcon.le, hH.x1_mem.2⟩ ⟨(hcon.trans hlt).le, hH.x2_mem.2⟩ hlt)
    have hL' : s.hi - s.x1 = ph * L - D1 := by rw [hD1]; ring
    refine ⟨⟨?_, hf2, rfl, Or.inr rfl, ?_⟩, hm2, hm.2, ?_⟩
    · dsimp only; rw [hL']; linarith
    · dsimp only
      rw [hL']
      have e1 : s.x1 + ph * (ph * L - D1) - (s.x1 + ph * (ph * L - D1)) = 0 := by ring
      have e2 : s.x2 - (s.hi - ph * (ph * L - D1)) =
          ((ph ^ 2 + ph - 1) * L) + (D2 - ph * D1) := by
        have : s.x2 = D2 + (s.lo + ph * L) := by rw [hD2]; ring
        rw [this]
        have : s.hi = L + s.lo := by rw [hL]; ring
        rw [this]; ring
      rw [e1, e2, abs_zero, add_zero]
      have t1 : |((ph ^ 2 + ph - 1) * L) + (D2 - ph * D1)| ≤ 4 / 10 ^ 16 * L + (|D1| + |D2|) := by
        refine (abs_add_le _ _).trans ?_
        refine add_le_add ?_ ?_
        · rw [abs_mul, abs_of_pos hLpos]
          exact mul_le_mul_of_nonneg_right hq hLpos.le
        · refine (abs_sub _ _).trans ?_
          rw [abs_mul, abs_of_pos (by linarith : (0 : F) < ph)]
          nlinarith
      have t2 : ph * L - D1 ≤ 67 / 100 * L := by linarith
      have t3 : (16 : F) / 10 ^ 16 * (ph * L - D1) ≤ 16 / 10 ^ 16 * (67 / 100 * L) :=
        mul_le_mul_of_nonneg_left t2 (by positivity)
      have t4 : (4 : F) / 10 ^ 16 * L + 16 / 10 ^ 16 * (67 / 100 * L) ≤ 16 / 10 ^ 16 * L := by
        have : (4 : F) / 10 ^ 16 * L + 16 / 10 ^ 16 * (67 / 100 * L) =
          (4 / 10 ^ 16 + 16 / 10 ^ 16 * (67 / 100)) * L := by ring
        rw [this]
        exact mul_le_mul_of_nonneg_right (by norm_num) hLpos.le
      linarith
    · dsimp only; rw [hL']; linarith

theorem goldenLoop_accurate {ph : F} (hp : GoldenConst ph) {f : F → F} {L0 a b m tol : F}
    (hv : Valley f a b m) (hL0 : 0 < L0) (n : Nat) :
    ∀ s : GoldenState F, Track ph f L0 s → Hull a b s → s.lo ≤ m → m ≤ s.hi → ∀ k : Nat,
      n + k = 100 → s.hi - s.lo ≤ (67 / 100) ^ k * L0 →
      (let r := goldenLoop ph f tol n s
       |(r.lo + r.hi) / 2 - m| ≤ max (tol / 2) (2 / 10 ^ 13 * L0)) := by
  induction n with
  | zero =>
    intro s hT hH h1 h2 k hk hs
    have hk' : k = 100 := by omega
    subst hk'
    dsimp only
    unfold goldenLoop
    refine le_max_of_le_right ?_
    have hsm : ((67 : F) / 100) ^ 100 ≤ 2 / 10 ^ 13 := by norm_num
    have : (67 / 100 : F) ^ 100 * L0 ≤ 2 / 10 ^ 13 * L0 :=
      mul_le_mul_of_nonneg_right hsm hL0.le
    rw [abs_le]
    constructor <;> linarith [hT.len]
  | succ n ih =>
    intro s hT hH h1 h2 k hk hs
    dsimp only
    unfold goldenLoop
    split
    · rename_i hlt
      refine le_max_of_le_left ?_
      rw [abs_le]
      constructor <;> linarith
    · by_cases hbig : 1 / 10 ^ 13 * L0 ≤ s.hi - s.lo
      · obtain ⟨t1, t2, t3, t4⟩ := goldenStep_track hp hT hH hv ⟨h1, h2⟩ hbig hL0
        refine ih _ t1 (goldenStep_hull (by linarith [hp.lb]) (by linarith [hp.ub]) f hH) t2 t3
          (k + 1) (by omega) (t4.trans ?_)
        rw [pow_succ]; linarith
      · push Not at hbig
        refine le_max_of_le_right ?_
        -- everything that follows happens in a tiny interval around `m`
        have hdr := hT.drift
        set D1 := s.x1 - (s.hi - ph * (s.hi - s.lo)) with hD1
        set D2 := s.x2 - (s.lo + ph * (s.hi - s.lo)) with hD2
        have hlen := hT.len
        have a1 := abs_nonneg D1
        have a2 := abs_nonneg D2
        have b1 := abs_le.mp (le_refl |D1|)
        have b2 := abs_le.mp (le_refl |D2|)
        have hsm : (16 : F) / 10 ^ 16 * L0 ≤ 1 / 10 ^ 14 * L0 :=
          mul_le_mul_of_nonneg_right (by norm_num) hL0.le
        have h16 : (0 : F) ≤ 16 / 10 ^ 16 * (s.hi - s.lo) := by positivity
        have p0 : 0 ≤ ph * (s.hi - s.lo) := mul_nonneg (by linarith [hp.lb]) hlen
        have p1 : ph * (s.hi - s.lo) ≤ s.hi - s.lo := by nlinarith [hp.ub]
        set ε : F := 1 / 10 ^ 14 * L0 with hε
        have hεpos : 0 < ε := by rw [hε]; positivity
        have hH' : Hull (s.lo - ε) (s.hi + ε) s := by
          refine ⟨⟨by linarith, by linarith⟩, ⟨by linarith, by linarith⟩, ⟨?_, ?_⟩, ⟨?_, ?_⟩⟩ <;>
            linarith
        have hp0 : 0 ≤ ph := by linarith [hp.lb]
        have hp1 : ph ≤ 1 := by linarith [hp.ub]
        have hfin := goldenLoop_hull hp0 hp1 f tol n _ (goldenStep_hull hp0 hp1 f hH')
        have hr1 := hfin.lo_mem
        have hr2 := hfin.hi_mem
        have hbound : (1 : F) / 10 ^ 13 * L0 + ε ≤ 2 / 10 ^ 13 * L0 := by
          rw [hε, ← add_mul]
          exact mul_le_mul_of_nonneg_right (by norm_num) hL0.le
        rw [abs_le]
        constructor
        · have := hr1.1; have := hr2.1; linarith
        · have := hr1.2; have := hr2.2; linarith

theorem minimizeTol_mem {ph : F} (hp : GoldenConst ph) (f : F → F) (tol : F) {a b : F}
    (h : a ≤ b) : (minimizeTol ph a b f tol).1 ∈ Set.Icc a b := by
  have h0 : (0 : F) ≤ ph := by linarith [hp.lb]
  have h1 : ph ≤ 1 := by linarith [hp.ub]
  have := goldenLoop_hull h0 h1 f tol goldenMaxIter _ (goldenInit_hull h0 h1 f h)
  unfold minimizeTol
  dsimp only
  constructor
  · linarith [this.lo_mem.1, this.hi_mem.1]
  · linarith [this.lo_mem.2, this.hi_mem.2]

theorem minimizeTol_accurate {ph : F} (hp : GoldenConst ph) {f : F → F} {tol a b m : F}
    (hv : Valley f a b m) :
    |(minimizeTol ph a b f tol).1 - m| ≤ max (tol / 2) (2 / 10 ^ 13 * (b - a)) := by
  have hab : a ≤ b := hv.1.trans hv.2.1
  rcases hab.eq_or_lt with heq | hlt
  · have := minimizeTol_mem hp f tol hab
    have h1 := hv.1
    have h2 := hv.2.1
    subst heq
    have e : (minimizeTol ph a a f tol).1 = m := by
      rw [le_antisymm this.2 this.1, le_antisymm h2 h1]
    rw [e, sub_self, abs_zero, sub_self, mul_zero]
    exact le_max_right _ _
  · exact goldenLoop_accurate hp hv (sub_pos.mpr hlt) 100 _ (goldenInit_track f hab)
      (goldenInit_hull (by linarith [hp.lb]) (by linarith [hp.ub]) f hab) hv.1 hv.2.1 0 rfl
      (by unfold goldenInit; simp)

theorem peak_iff_valley_neg {f : F → F} {a b m : F} : Peak f a b m ↔ Valley (fun t => -f t) a b m := by
  unfold Peak Valley StrictMonoOn StrictAntiOn
  simp only [neg_lt_neg_iff]

theorem maximizeTol_accurate {ph : F} (hp : GoldenConst ph) {f : F → F} {tol a b m : F}
    (hv : Peak f a b m) :
    |(maximizeTol ph a b f tol).1 - m| ≤ max (tol / 2) (2 / 10 ^ 13 * (b - a)) :=
  minimizeTol_accurate hp (peak_iff_valley_neg.mp hv)

theorem maximizeTol_mem {ph : F} (hp : GoldenConst ph) (f : F → F) (tol : F) {a b : F}
    (h : a ≤ b) : (maximizeTol ph a b f tol).1 ∈ Set.Icc a b :=
  minimizeTol_mem hp _ tol h

/-! ### Extrema scan -/

theorem nextSample_le {tEnd step t : F} : nextSample tEnd step t ≤ tEnd := by
  unfold nextSample; split
  · assumption
  · exact le_rfl

theorem nextSample_le_add {tEnd step t : F} : nextSample tEnd step t ≤ t + step := by
  unfold nextSample; split
  · exact le_rfl
  · rename_i h; exact (not_le.mp h).le

theorem extremaLoop_finishes (ph : F) (f : F → F) (tEnd step tol : F) (hstep : 0 < step) (n : Nat) :
    ∀ t0 t1 pr acc, tEnd - t1 ≤ n * step →
      ∀ fuel, n + 1 < fuel → ∃ l, extremaLoop ph f tEnd step tol fuel t0 t1 pr acc = some l := by
  induction n with
  | zero =>
    intro t0 t1 pr acc h fuel hf
    obtain ⟨k, rfl⟩ : ∃ k, fuel = k + 1 := ⟨fuel - 1, by omega⟩
    unfold extremaLoop
    dsimp only
    have : nextSample tEnd step t1 ≤ t1 := by
      have := nextSample_le (tEnd := tEnd) (step := step) (t := t1)
      simp only [Nat.cast_zero, zero_mul] at h
      linarith
    rw [if_pos this]
    exact ⟨_, rfl⟩
  | succ n ih =>
    intro t0 t1 pr acc h fuel hf
    obtain ⟨k, rfl⟩ : ∃ k, fuel = k + 1 := ⟨fuel - 1, by omega⟩
    unfold extremaLoop
    dsimp only
    split
    · exact ⟨_, rfl⟩
    · refine ih _ _ _ _ ?_ k (by omega)
      unfold nextSample
      push_cast at h
      split
      · linarith
      · have : (0 : F) ≤ n * step := by positivity
        linarith

theorem extremaLoop_acc (ph : F) (f : F → F) (tEnd step tol : F) (fuel : Nat) :
    ∀ t0 t1 pr acc l, extremaLoop ph f tEnd step tol fuel t0 t1 pr acc = some l →
      ∀ x ∈ acc, x ∈ l := by
  induction fuel with
  | zero => intro t0 t1 pr acc l h; simp [extremaLoop] at h
  | succ n ih =>
    intro t0 t1 pr acc l h x hx
    unfold extremaLoop at h
    dsimp only at h
    split at h
    · cases h; exact hx
    · exact ih _ _ _ _ _ h x (List.mem_append_left _ hx)

/-- Every reported extremum lies in a bracket of two consecutive steps whose sampled slopes agree
with its kind. -/
def Justified (ph : F) (f : F → F) (start tEnd step tol : F) (x : Extremum F) : Prop :=
  ∃ t0 t1 t2, start ≤ t0 ∧ t0 < t1 ∧ t1 < t2 ∧ t2 ≤ tEnd ∧ t1 ≤ t0 + step ∧ t2 ≤ t1 + step ∧
    x.value = f x.t ∧
    ((x.kind = .maximum ∧ f t0 < f t1 ∧ f t2 ≤ f t1 ∧ x.t = (maximizeTol ph t0 t2 f tol).1) ∨
     (x.kind = .minimum ∧ f t1 ≤ f t0 ∧ f t1 < f t2 ∧ x.t = (minimizeTol ph t0 t2 f tol).1))

theorem extremaLoop_justified (ph : F) (f : F → F) (start tEnd step tol : F)
    (fuel : Nat) :
    ∀ t0 t1 pr acc l, start ≤ t0 → t0 < t1 → t1 ≤ t0 + step → pr = decide (f t1 > f t0) →
      (∀ x ∈ acc, Justified ph f start tEnd step tol x) →
      extremaLoop ph f tEnd step tol fuel t0 t1 pr acc = some l →
      ∀ x ∈ l, Justified ph f start tEnd step tol x := by
  induction fuel with
  | zero => intro t0 t1 pr acc l _ _ _ _ _ h; simp [extremaLoop] at h
  | succ n ih =>
    intro t0 t1 pr acc l h0 h01 hs1 hpr hacc h
    unfold extremaLoop at h
    dsimp only at h
    split at h
    · cases h; exact hacc
    · rename_i hlt
      push Not at hlt
      refine ih _ _ _ _ _ (h0.trans h01.le) hlt nextSample_le_add rfl ?_ h
      intro x hx
      rcases List.mem_append.mp hx with hx | hx
      · exact hacc x hx
      · unfold detect at hx
        split at hx
        · rename_i hc
          simp only [hpr, Bool.and_eq_true, decide_eq_true_eq, Bool.not_eq_true',
            decide_eq_false_iff_not, gt_iff_lt, not_lt] at hc
          simp only [List.mem_singleton] at hx
          subst hx
          exact ⟨t0, t1, _, h0, h01, hlt, nextSample_le, hs1, nextSample_le_add, rfl,
            Or.inl ⟨rfl, hc.1, hc.2, rfl⟩⟩
        · split at hx
          · rename_i hc
            simp only [hpr, Bool.and_eq_true, decide_eq_true_eq, Bool.not_eq_true',
              decide_eq_false_iff_not, gt_iff_lt, not_lt] at hc
            simp only [List.mem_singleton] at hx
            subst hx
            exact ⟨t0, t1, _, h0, h01, hlt, nextSample_le, hs1, nextSample_le_add, rfl,
              Or.inr ⟨rfl, hc.1, hc.2, rfl⟩⟩
          · simp at hx

theorem peak_of_local {f : F → F} {start tEnd step m t0 t2 : F} (h : LocalPeak f start tEnd step m)
    (h0 : start ≤ t0) (h0' : m - 2 * step ≤ t0) (hm0 : t0 ≤ m) (hm2 : m ≤ t2) (h2 : t2 ≤ tEnd)
    (h2' : t2 ≤ m + 2 * step) : Peak f t0 t2 m :=
  ⟨hm0, hm2, h.1.mono (Set.Icc_subset_Icc (max_le h0 h0') le_rfl),
   h.2.mono (Set.Icc_subset_Icc le_rfl (le_min h2 h2'))⟩

theorem extremaLoop_complete {ph : F} (hp : GoldenConst ph) (f : F → F)
    (start tEnd step tol m : F) (hstep : 0 < step) (hm2 : m + step ≤ tEnd)
    (hl : LocalPeak f start tEnd step m) (fuel : Nat) :
    ∀ t0 t1 pr acc l, start ≤ t0 → t0 < t1 → t1 ≤ t0 + step → pr = decide (f t1 > f t0) →
      (t1 ≤ m ∨ (t0 ≤ m ∧ m < t1 ∧ t1 = t0 + step ∧ f t0 < f t1)) →
      extremaLoop ph f tEnd step tol fuel t0 t1 pr acc = some l →
      ∃ x ∈ l, x.kind = .maximum ∧ x.value = f x.t ∧
        |x.t - m| ≤ max (tol / 2) (2 / 10 ^ 13 * (2 * step)) := by
  induction fuel with
  | zero => intro t0 t1 pr acc l _ _ _ _ _ h; simp [extremaLoop] at h
  | succ n ih =>
    intro t0 t1 pr acc l h0 h01 hs1 hpr hcase h
    unfold extremaLoop at h
    dsimp only at h
    -- what a detection on `[t0, t2]` gives
    have found : ∀ t2, t2 ≤ t1 + step → Peak f t0 t2 m → ∀ x : Extremum F,
        x = ⟨(maximizeTol ph t0 t2 f tol).1, (maximizeTol ph t0 t2 f tol).2, .maximum⟩ →
        x.kind = .maximum ∧ x.value = f x.t ∧
          |x.t - m| ≤ max (tol / 2) (2 / 10 ^ 13 * (2 * step)) := by
      intro t2 h2 hpk x hx
      subst hx
      refine ⟨rfl, rfl, (maximizeTol_accurate hp hpk).trans (max_le_max le_rfl ?_)⟩
      exact mul_le_mul_of_nonneg_left (by linarith) (by positivity)
    rcases hcase with hA | ⟨hB0, hB1, hB2, hB3⟩
    · have hns : nextSample tEnd step t1 = t1 + step := by
        unfold nextSample; rw [if_pos (by linarith)]
      rw [hns, if_neg (by linarith)] at h
      by_cases hnext : t1 + step ≤ m
      · exact ih _ _ _ _ _ (h0.trans h01.le) (by linarith) le_rfl rfl (Or.inl hnext) h
      · push Not at hnext
        have hrise : f t0 < f t1 :=
          hl.1 ⟨max_le h0 (by linarith), by linarith⟩ ⟨max_le (by linarith) (by linarith), hA⟩ h01
        by_cases hup : f (t1 + step) > f t1
        · exact ih _ _ _ _ _ (h0.trans h01.le) (by linarith) le_rfl rfl
            (Or.inr ⟨hA, hnext, rfl, hup⟩) h
        · have hpk : Peak f t0 (t1 + step) m :=
            peak_of_local hl h0 (by linarith) (by linarith) hnext.le (by linarith) (by linarith)
          have hmem := extremaLoop_acc _ _ _ _ _ _ _ _ _ _ _ h
            ⟨(maximizeTol ph t0 (t1 + step) f tol).1, (maximizeTol ph t0 (t1 + step) f tol).2,
              .maximum⟩ (List.mem_append_right _ (by
                simp [detect, hpr, hrise, hup]))
          exact ⟨_, hmem, found _ le_rfl hpk _ rfl⟩
    · have hpk0 : m ≤ tEnd := by linarith
      have hlt : t1 < nextSample tEnd step t1 := by
        unfold nextSample
        split
        · linarith
        · have h1 : t1 ≤ tEnd := by linarith
          rcases h1.eq_or_lt with he | hl'
          · exfalso
            have hmt : m = t0 := le_antisymm (by linarith) hB0
            have : f t1 < f m := hl.2 ⟨le_rfl, le_min hpk0 (by linarith)⟩
              ⟨hB1.le, le_min he.le (by linarith)⟩ hB1
            rw [hmt] at this
            exact absurd this (not_lt.mpr hB3.le)
          · exact hl'
      rw [if_neg (not_le.mpr hlt)] at h
      have h2a := nextSample_le (tEnd := tEnd) (step := step) (t := t1)
      have h2b := nextSample_le_add (tEnd := tEnd) (step := step) (t := t1)
      generalize nextSample tEnd step t1 = t2 at h hlt h2a h2b
      have hfall : f t2 < f t1 := hl.2 ⟨hB1.le, le_min (by linarith) (by linarith)⟩
        ⟨by linarith, le_min h2a (by linarith)⟩ hlt
      have hpk : Peak f t0 t2 m :=
        peak_of_local hl h0 (by linarith) hB0 (by linarith) h2a (by linarith)
      have hmem := extremaLoop_acc _ _ _ _ _ _ _ _ _ _ _ h
        ⟨(maximizeTol ph t0 t2 f tol).1, (maximizeTol ph t0 t2 f tol).2, .maximum⟩
        (List.mem_append_right _ (by
          simp [detect, hpr, hB3, hfall.le, not_lt.mpr hfall.le]))
      exact ⟨_, hmem, found _ h2b hpk _ rfl⟩

theorem valley_of_local {f : F → F} {start tEnd step m t0 t2 : F} (h : LocalValley f start tEnd step m)
    (h0 : start ≤ t0) (h0' : m - 2 * step ≤ t0) (hm0 : t0 ≤ m) (hm2 : m ≤ t2) (h2 : t2 ≤ tEnd)
    (h2' : t2 ≤ m + 2 * step) : Valley f t0 t2 m :=
  ⟨hm0, hm2, h.1.mono (Set.Icc_subset_Icc (max_le h0 h0') le_rfl),
   h.2.mono (Set.Icc_subset_Icc le_rfl (le_min h2 h2'))⟩

theorem extremaLoop_complete_min {ph : F} (hp : GoldenConst ph) (f : F → F)
    (start tEnd step tol m : F) (hstep : 0 < step) (hm2 : m + step ≤ tEnd)
    (hl : LocalValley f start tEnd step m) (fuel : Nat) :
    ∀ t0 t1 pr acc l, start ≤ t0 → t0 < t1 → t1 ≤ t0 + step → pr = decide (f t1 > f t0) →
      (t1 ≤ m ∨ (t0 ≤ m ∧ m < t1 ∧ t1 = t0 + step ∧ f t1 ≤ f t0)) →
      extremaLoop ph f tEnd step tol fuel t0 t1 pr acc = some l →
      ∃ x ∈ l, x.kind = .minimum ∧ x.value = f x.t ∧
        |x.t - m| ≤ max (tol / 2) (2 / 10 ^ 13 * (2 * step)) := by
  induction fuel with
  | zero => intro t0 t1 pr acc l _ _ _ _ _ h; simp [extremaLoop] at h
  | succ n ih =>
    intro t0 t1 pr acc l h0 h01 hs1 hpr hcase h
    unfold extremaLoop at h
    dsimp only at h
    -- what a detection on `[t0, t2]` gives
    have found : ∀ t2, t2 ≤ t1 + step → Valley f t0 t2 m → ∀ x : Extremum F,
        x = ⟨(minimizeTol ph t0 t2 f tol).1, (minimizeTol ph t0 t2 f tol).2, .minimum⟩ →
        x.kind = .minimum ∧ x.value = f x.t ∧
          |x.t - m| ≤ max (tol / 2) (2 / 10 ^ 13 * (2 * step)) := by
      intro t2 h2 hpk x hx
      subst hx
      refine ⟨rfl, rfl, (minimizeTol_accurate hp hpk).trans (max_le_max le_rfl ?_)⟩
      exact mul_le_mul_of_nonneg_left (by linarith) (by positivity)
    rcases hcase with hA | ⟨hB0, hB1, hB2, hB3⟩
    · have hns : nextSample tEnd step t1 = t1 + step := by
        unfold nextSample; rw [if_pos (by linarith)]
      rw [hns, if_neg (by linarith)] at h
      by_cases hnext : t1 + step ≤ m
      · exact ih _ _ _ _ _ (h0.trans h01.le) (by linarith) le_rfl rfl (Or.inl hnext) h
      · push Not at hnext
        have hrise : f t1 < f t0 :=
          hl.1 ⟨max_le h0 (by linarith), by linarith⟩ ⟨max_le (by linarith) (by linarith), hA⟩ h01
        by_cases hup : ¬ f (t1 + step) > f t1
        · exact ih _ _ _ _ _ (h0.trans h01.le) (by linarith) le_rfl rfl
            (Or.inr ⟨hA, hnext, rfl, not_lt.mp hup⟩) h
        · have hpk : Valley f t0 (t1 + step) m :=
            valley_of_local hl h0 (by linarith) (by linarith) hnext.le (by linarith) (by linarith)
          have hmem := extremaLoop_acc _ _ _ _ _ _ _ _ _ _ _ h
            ⟨(minimizeTol ph t0 (t1 + step) f tol).1, (minimizeTol ph t0 (t1 + step) f tol).2,
              .minimum⟩ (List.mem_append_right _ (by
                simp only [not_not] at hup; simp [detect, hpr, hrise.le, hup]))
          exact ⟨_, hmem, found _ le_rfl hpk _ rfl⟩
    · have hpk0 : m ≤ tEnd := by linarith
      have hlt : t1 < nextSample tEnd step t1 := by
        unfold nextSample
        split
        · linarith
        · have h1 : t1 ≤ tEnd := by linarith
          rcases h1.eq_or_lt with he | hl'
          · exfalso
            have hmt : m = t0 := le_antisymm (by linarith) hB0
            have : f m < f t1 := hl.2 ⟨le_rfl, le_min hpk0 (by linarith)⟩
              ⟨hB1.le, le_min he.le (by linarith)⟩ hB1
            rw [hmt] at this
            exact absurd this (not_lt.mpr hB3)
          · exact hl'
      rw [if_neg (not_le.mpr hlt)] at h
      have h2a := nextSample_le (tEnd := tEnd) (step := step) (t := t1)
      have h2b := nextSample_le_add (tEnd := tEnd) (step := step) (t := t1)
      generalize nextSample tEnd step t1 = t2 at h hlt h2a h2b
      have hfall : f t1 < f t2 := hl.2 ⟨hB1.le, le_min (by linarith) (by linarith)⟩
        ⟨by linarith, le_min h2a (by linarith)⟩ hlt
      have hpk : Valley f t0 t2 m :=
        valley_of_local hl h0 (by linarith) hB0 (by linarith) h2a (by linarith)
      have hmem := extremaLoop_acc _ _ _ _ _ _ _ _ _ _ _ h
        ⟨(minimizeTol ph t0 t2 f tol).1, (minimizeTol ph t0 t2 f tol).2, .minimum⟩
        (List.mem_append_right _ (by
          simp [detect, hpr, hB3, hfall]))
      exact ⟨_, hmem, found _ h2b hpk _ rfl⟩

end Verif.RootFinding
