import Mathlib.RingTheory.Polynomial.Chebyshev
import Mathlib.Analysis.Calculus.Deriv.Polynomial
import Mathlib.Analysis.Calculus.Deriv.Comp
import Mathlib.Analysis.Calculus.Deriv.Mul
import Verif.Interp.Lemmas

namespace Verif.Interp
open Polynomial Verif.Text

section field
variable {K : Type} [Field K] [LinearOrder K] [IsStrictOrderedRing K] [FloorRing K]

/-- Inside record `k` (its end excluded) that record is used. -/
theorem locate_inside {c : Cheb K} {et : K} {k : Nat} (hl : 0 < c.intlen) (hk : k < c.nRecords)
    (h1 : c.init + k * c.intlen ≤ et) (h2 : et < c.init + (k + 1) * c.intlen) :
    locate c et = recordHead c k := by
  have hkn : ((k : K) + 1) ≤ c.nRecords := by exact_mod_cast hk
  have hfl : ⌊(et - c.init) / c.intlen⌋ = (k : Int) := by
    rw [Int.floor_eq_iff]
    constructor
    · rw [le_div_iff₀ hl]; push_cast; linarith
    · rw [div_lt_iff₀ hl]; push_cast; linarith
  unfold locate
  dsimp only
  rw [if_neg, hfl]
  · have n1 : ¬ ((k : Int) < 0) := by omega
    have n2 : ¬ (c.nRecords ≤ k) := by omega
    simp only [n1, if_false, Int.toNat_natCast, ge_iff_le, n2]
  · push Not
    constructor
    · have : 0 ≤ (k : K) * c.intlen := mul_nonneg (Nat.cast_nonneg _) hl.le
      linarith
    · have : ((k : K) + 1) * c.intlen ≤ c.nRecords * c.intlen := mul_le_mul_of_nonneg_right hkn hl.le
      linarith

/-- At the end of coverage the last record is used. -/
theorem locate_end {c : Cheb K} (hl : 0 < c.intlen) (hn : 1 ≤ c.nRecords) :
    locate c (c.init + c.intlen * c.nRecords) = recordHead c (c.nRecords - 1) := by
  have hfl : ⌊(c.init + c.intlen * c.nRecords - c.init) / c.intlen⌋ = (c.nRecords : Int) := by
    rw [add_sub_cancel_left, mul_div_cancel_left₀ _ hl.ne']
    simp
  unfold locate
  dsimp only
  rw [if_neg, hfl]
  · have n1 : ¬ ((c.nRecords : Int) < 0) := by omega
    have n2 : ¬ ((c.nRecords : Int) - 1 < 0) := by omega
    have n3 : ((c.nRecords : Int) - 1).toNat = c.nRecords - 1 := by omega
    simp only [n1, if_false, Int.toNat_natCast, ge_iff_le, le_refl, if_true, n2, n3]
  · push Not
    refine ⟨?_, le_rfl⟩
    have : 0 ≤ c.intlen * c.nRecords := mul_nonneg hl.le (Nat.cast_nonneg _)
    linarith

/-- Every epoch in coverage is inside a record or at the very end. -/
theorem inside_or_end {c : Cheb K} {et : K} (hl : 0 < c.intlen) (h1 : c.init ≤ et)
    (h2 : et ≤ c.init + c.intlen * c.nRecords) :
    et = c.init + c.intlen * c.nRecords ∨
      ∃ k < c.nRecords, c.init + k * c.intlen ≤ et ∧ et < c.init + (k + 1) * c.intlen := by
  by_cases he : et = c.init + c.intlen * c.nRecords
  · exact Or.inl he
  · right
    have hlt : et < c.init + c.intlen * c.nRecords := lt_of_le_of_ne h2 he
    have h0 : 0 ≤ (et - c.init) / c.intlen := div_nonneg (by linarith) hl.le
    have hfl := Int.floor_nonneg.mpr h0
    have a1 := Int.floor_le ((et - c.init) / c.intlen)
    have a2 := Int.lt_floor_add_one ((et - c.init) / c.intlen)
    obtain ⟨k, hk⟩ := Int.eq_ofNat_of_zero_le hfl
    rw [hk] at a1 a2
    rw [le_div_iff₀ hl] at a1
    rw [div_lt_iff₀ hl] at a2
    push_cast at a1 a2
    refine ⟨k, ?_, by linarith, by linarith⟩
    by_contra hge
    have : (c.nRecords : K) ≤ k := by exact_mod_cast not_lt.mp hge
    have : (c.nRecords : K) * c.intlen ≤ k * c.intlen := mul_le_mul_of_nonneg_right this hl.le
    linarith

theorem locate_sound {c : Cheb K} {et mid radius : K} {idx : Nat} (hl : 0 < c.intlen)
    (hn : 1 ≤ c.nRecords) (h : locate c et = .ok (idx, mid, radius)) :
    idx < c.nRecords ∧ c.init + idx * c.intlen ≤ et ∧ et ≤ c.init + (idx + 1) * c.intlen ∧
      0 < radius ∧ c.records[idx * c.rsize]? = some mid ∧ c.records[idx * c.rsize + 1]? = some radius := by
  have hcov : c.init ≤ et ∧ et ≤ c.init + c.intlen * c.nRecords := by
    by_contra hcov
    unfold locate at h
    dsimp only at h
    rw [if_pos (by by_contra hh; push Not at hh; exact hcov hh)] at h
    simp at h
  have main : ∀ k, k < c.nRecords → c.init + k * c.intlen ≤ et → et ≤ c.init + (k + 1) * c.intlen →
      recordHead c k = .ok (idx, mid, radius) →
      idx < c.nRecords ∧ c.init + idx * c.intlen ≤ et ∧ et ≤ c.init + (idx + 1) * c.intlen ∧
      0 < radius ∧ c.records[idx * c.rsize]? = some mid ∧
        c.records[idx * c.rsize + 1]? = some radius := by
    intro k hk h1 h2 hm
    unfold recordHead at hm
    dsimp only at hm
    split at hm
    · rename_i m r hm1 hm2
      split at hm
      · simp at hm
      · simp only [Res.ok.injEq, Prod.mk.injEq] at hm
        obtain ⟨rfl, rfl, rfl⟩ := hm
        rename_i hr
        exact ⟨hk, h1, h2, not_le.mp hr, hm1, hm2⟩
    · simp at hm
  rcases inside_or_end hl hcov.1 hcov.2 with rfl | ⟨k, hk, h1, h2⟩
  · rw [locate_end hl hn] at h
    have e : ((c.nRecords - 1 : Nat) : K) = c.nRecords - 1 := by
      rw [Nat.cast_sub hn]; simp
    refine main (c.nRecords - 1) (by omega) ?_ ?_ h
    · rw [e]
      nlinarith
    · rw [e]
      apply le_of_eq; ring
  · rw [locate_inside hl hk h1 h2] at h
    exact main k hk h1 h2.le h

theorem locate_ne_panic {c : Cheb K} {et : K} (hl : 0 < c.intlen) (hn : 1 ≤ c.nRecords)
    (hlen : c.records.length = c.nRecords * c.rsize) (hr : 2 ≤ c.rsize) : locate c et ≠ .panic := by
  have hb : ∀ k < c.nRecords, k * c.rsize + 1 < c.records.length := by
    intro k hk
    rw [hlen]
    have : (k + 1) * c.rsize ≤ c.nRecords * c.rsize := Nat.mul_le_mul_right _ hk
    rw [Nat.add_mul, Nat.one_mul] at this
    omega
  have main : ∀ k, k < c.nRecords →
      recordHead c k ≠ .panic := by
    intro k hk
    have := hb k hk
    unfold recordHead
    dsimp only
    rw [List.getElem?_eq_getElem (by omega), List.getElem?_eq_getElem this]
    simp only
    split <;> simp
  by_cases hcov : c.init ≤ et ∧ et ≤ c.init + c.intlen * c.nRecords
  · rcases inside_or_end hl hcov.1 hcov.2 with rfl | ⟨k, hk, h1, h2⟩
    · rw [locate_end hl hn]; exact main _ (by omega)
    · rw [locate_inside hl hk h1 h2]; exact main k hk
  · unfold locate
    dsimp only
    rw [if_pos (by by_contra hh; push Not at hh; exact hcov hh)]
    simp

theorem coeffs_ok {c : Cheb K} {comp k i : Nat} (hlen : c.records.length = c.nRecords * c.rsize)
    (hr : c.rsize = 2 + comp * c.ncoeff) (hk : k < c.nRecords) (hi : i < comp) :
    ∃ l, coeffs c (k * c.rsize + 2) i = .ok l ∧ l.length = c.ncoeff ∧
      ∀ j < c.ncoeff, l.getD j 0 = c.records.getD (k * c.rsize + 2 + i * c.ncoeff + j) 0 := by
  have h1 : (k + 1) * c.rsize ≤ c.nRecords * c.rsize := Nat.mul_le_mul_right _ hk
  have h2 : (i + 1) * c.ncoeff ≤ comp * c.ncoeff := Nat.mul_le_mul_right _ hi
  rw [Nat.add_mul, Nat.one_mul] at h1
  have h3 : (i + 1) * c.ncoeff = i * c.ncoeff + c.ncoeff := by ring
  unfold coeffs
  rw [sliceL_eq (by omega) (by omega),
    show k * c.rsize + 2 + (i + 1) * c.ncoeff - (k * c.rsize + 2 + i * c.ncoeff) = c.ncoeff by omega]
  refine ⟨_, rfl, slice_length (by omega), fun j hj => slice_getD hj⟩

/-! ### eval.rs -/

/-- What `spk.rs` guarantees of a loaded segment. -/
structure Dyn.Valid (s : Dyn K) : Prop where
  n : 1 ≤ s.nRecords
  len : 0 < s.intlen
  size : s.data.length = s.nRecords * s.rsize
  shape : (s.dataType = 3 ∧ s.rsize = 2 + 6 * s.ncoeff) ∨ (s.dataType ≠ 3 ∧ s.rsize = 2 + 3 * s.ncoeff)

theorem locateParams_ok {init intlen : K} {n : Nat} {et : K} (hl : 0 < intlen) (hn : 1 ≤ n)
    (h1 : init ≤ et) (h2 : et ≤ init + intlen * n) :
    ∃ k < n, locateParams init intlen n et = .ok k ∧ init + k * intlen ≤ et ∧
      et ≤ init + (k + 1) * intlen ∧ (et < init + intlen * n → et < init + (k + 1) * intlen) := by
  unfold locateParams
  rw [if_neg (by push Not; exact ⟨by omega, hl⟩)]
  dsimp only
  rw [if_neg (by push Not; exact ⟨h1, h2⟩)]
  have e : ((n - 1 : Nat) : K) = n - 1 := by rw [Nat.cast_sub hn]; simp
  by_cases hr : (et - init) / intlen ≥ n
  · rw [if_pos hr]
    have hr' := (le_div_iff₀ hl).mp hr
    refine ⟨n - 1, by omega, rfl, ?_, ?_, ?_⟩
    · rw [e]; nlinarith
    · rw [e]; nlinarith
    · intro hlt; rw [e]; nlinarith
  · rw [if_neg hr]
    have h0 : 0 ≤ (et - init) / intlen := div_nonneg (by linarith) hl.le
    have hfl := Int.floor_nonneg.mpr h0
    obtain ⟨k, hk⟩ := Int.eq_ofNat_of_zero_le hfl
    have a1 := Int.floor_le ((et - init) / intlen)
    have a2 := Int.lt_floor_add_one ((et - init) / intlen)
    rw [hk] at a1 a2
    have hkn : k < n := by
      have : ((k : Int) : K) < n := lt_of_le_of_lt a1 (not_le.mp hr)
      exact_mod_cast this
    rw [le_div_iff₀ hl] at a1
    rw [div_lt_iff₀ hl] at a2
    push_cast at a1 a2
    rw [hk]
    exact ⟨k, hkn, by simp, by linarith, by linarith, fun _ => by linarith⟩

theorem locateParams_out {init intlen : K} {n : Nat} {et : K} (hl : 0 < intlen) (hn : 1 ≤ n)
    (h : ¬ (init ≤ et ∧ et ≤ init + intlen * n)) :
    locateParams init intlen n et = .err .outOfCoverage := by
  unfold locateParams
  rw [if_neg (by push Not; exact ⟨by omega, hl⟩)]
  dsimp only
  rw [if_pos (by by_contra hh; push Not at hh; exact h hh)]

theorem tryLocate_ok {s : Dyn K} (hv : s.Valid) {et : K} (h1 : s.init ≤ et)
    (h2 : et ≤ s.init + s.intlen * s.nRecords) :
    ∃ k < s.nRecords, s.init + k * s.intlen ≤ et ∧ et ≤ s.init + (k + 1) * s.intlen ∧
      (et < s.init + s.intlen * s.nRecords → et < s.init + (k + 1) * s.intlen) ∧
      tryLocate s et = .ok ((s.data.drop (k * s.rsize)).take s.rsize,
        (et - s.data.getD (k * s.rsize) 0) / s.data.getD (k * s.rsize + 1) 0,
        s.data.getD (k * s.rsize + 1) 0) := by
  obtain ⟨k, hk, e1, e2, e3, e4⟩ := locateParams_ok hv.len hv.n h1 h2
  refine ⟨k, hk, e2, e3, e4, ?_⟩
  have hb : (k + 1) * s.rsize ≤ s.nRecords * s.rsize := Nat.mul_le_mul_right _ hk
  rw [Nat.add_mul, Nat.one_mul, ← hv.size] at hb
  have hr : 2 ≤ s.rsize := by rcases hv.shape with h | h <;> omega
  unfold tryLocate
  rw [e1]
  simp only [Res.bind_ok]
  rw [sliceL_eq (by omega) hb, Nat.add_sub_cancel_left]
  simp only [Res.orPanic, Res.bind_ok]
  have hl := slice_length (v := s.data) (a := k * s.rsize) (n := s.rsize) hb
  have g : ∀ j < s.rsize, ((s.data.drop (k * s.rsize)).take s.rsize)[j]? =
      some (s.data.getD (k * s.rsize + j) 0) := by
    intro j hj
    rw [List.getElem?_take_of_lt hj, List.getElem?_drop, List.getElem?_eq_getElem (by omega),
      List.getD_eq_getElem _ _ (by omega)]
  rw [g 0 (by omega), g 1 (by omega)]
  simp only [Res.bind_ok, Nat.add_zero]

theorem tryLocate_out {s : Dyn K} (hv : s.Valid) {et : K}
    (h : ¬ (s.init ≤ et ∧ et ≤ s.init + s.intlen * s.nRecords)) :
    tryLocate s et = .err .outOfCoverage := by
  unfold tryLocate
  rw [locateParams_out hv.len hv.n h]
  rfl

theorem block_ok {s : Dyn K} (hv : s.Valid) {k i : Nat} (hk : k < s.nRecords)
    (hi : 2 + (i + 1) * s.ncoeff ≤ s.rsize) :
    ∃ l, block ((s.data.drop (k * s.rsize)).take s.rsize) s.ncoeff i = .ok l ∧ l.length = s.ncoeff ∧
      ∀ j < s.ncoeff, l.getD j 0 = s.data.getD (k * s.rsize + 2 + i * s.ncoeff + j) 0 := by
  have hb : (k + 1) * s.rsize ≤ s.nRecords * s.rsize := Nat.mul_le_mul_right _ hk
  rw [Nat.add_mul, Nat.one_mul, ← hv.size] at hb
  have hl := slice_length (v := s.data) (a := k * s.rsize) (n := s.rsize) hb
  have h3 : (i + 1) * s.ncoeff = i * s.ncoeff + s.ncoeff := by ring
  unfold block
  rw [sliceL_eq (by omega) (by omega),
    show 2 + (i + 1) * s.ncoeff - (2 + i * s.ncoeff) = s.ncoeff by omega]
  refine ⟨_, rfl, slice_length (by omega), fun j hj => ?_⟩
  rw [slice_getD hj, slice_getD (by omega)]
  congr 1
  omega

/-- A segment that can serve the epoch. -/
def Usable (et : K) (s : Stacked K) : Prop :=
  (s.startEt ≤ et ∧ et ≤ s.endEt) ∧ (s.desc.init ≤ et ∧ et ≤ s.desc.init + s.desc.intlen * s.desc.nRecords)

theorem selectLoop_spec {et : K} : ∀ (l : List (Stacked K)) (seen : Bool), (∀ s ∈ l, s.desc.Valid) →
    (∃ pre s post, l = pre ++ s :: post ∧ Usable et s ∧ (∀ t ∈ pre, ¬ Usable et t) ∧
      selectLoop et l seen = .ok s.desc) ∨
    ((∀ t ∈ l, ¬ Usable et t) ∧
      selectLoop et l seen = .err (if seen || !l.isEmpty then .outOfCoverage else .invalidSegment))
  | [], seen, _ => Or.inr ⟨by simp, by simp [selectLoop]⟩
  | s :: rest, seen, hv => by
    have ih := selectLoop_spec (et := et) rest true (fun t ht => hv t (by simp [ht]))
    have hs := hv s (by simp)
    have skip : ¬ Usable et s → selectLoop et (s :: rest) seen = selectLoop et rest true →
        ((∃ pre t post, s :: rest = pre ++ t :: post ∧ Usable et t ∧ (∀ t ∈ pre, ¬ Usable et t) ∧
          selectLoop et (s :: rest) seen = .ok t.desc) ∨
        ((∀ t ∈ s :: rest, ¬ Usable et t) ∧ selectLoop et (s :: rest) seen =
          .err (if seen || !(s :: rest).isEmpty then .outOfCoverage else .invalidSegment))) := by
      intro hu he
      rw [he]
      rcases ih with ⟨pre, t, post, rfl, h1, h2, h3⟩ | ⟨h1, h2⟩
      · refine Or.inl ⟨s :: pre, t, post, rfl, h1, ?_, h3⟩
        intro x hx
        rcases List.mem_cons.mp hx with rfl | hx
        · exact hu
        · exact h2 x hx
      · refine Or.inr ⟨?_, by rw [h2]; simp⟩
        intro x hx
        rcases List.mem_cons.mp hx with rfl | hx
        · exact hu
        · exact h1 x hx
    by_cases hc : s.startEt ≤ et ∧ et ≤ s.endEt
    · by_cases hd : s.desc.init ≤ et ∧ et ≤ s.desc.init + s.desc.intlen * s.desc.nRecords
      · left
        obtain ⟨k, _, _, _, _, hok⟩ := tryLocate_ok hs hd.1 hd.2
        refine ⟨[], s, rest, rfl, ⟨hc, hd⟩, by simp, ?_⟩
        unfold selectLoop
        rw [if_neg (not_not.mpr hc), hok]
      · refine skip (fun h => hd h.2) ?_
        conv_lhs => unfold selectLoop
        rw [if_neg (not_not.mpr hc), tryLocate_out hs hd]
    · refine skip (fun h => hc h.1) ?_
      conv_lhs => unfold selectLoop
      rw [if_pos hc]

end field

/-! ### Velocity is the derivative of position -/

/-- The Chebyshev series with coefficients `c`, from order `k` on. -/
noncomputable def chebFrom : Nat → List ℝ → ℝ[X]
  | _, [] => 0
  | k, a :: l => C a * Chebyshev.T ℝ k + chebFrom (k + 1) l

/-- The polynomial `Σ c_k T_k`. -/
noncomputable def chebPoly (c : List ℝ) : ℝ[X] := chebFrom 0 c

/-- What the crate `cheby` documents: `evaluate` sums the Chebyshev series, `evaluate_derivative` its
derivative. -/
structure ChebContract (ev evD : List ℝ → ℝ → ℝ) : Prop where
  value : ∀ c t, ev c t = (chebPoly c).eval t
  deriv : ∀ c t, evD c t = (derivative (chebPoly c)).eval t

/-- Component `i` of a result. -/
def comp (r : Res Err (List ℝ)) (i : Nat) : ℝ :=
  match r with
  | .ok l => l.getD i 0
  | _ => 0

theorem series_deriv (p : ℝ[X]) (mid radius et : ℝ) :
    HasDerivAt (fun t => p.eval ((t - mid) / radius))
      ((derivative p).eval ((et - mid) / radius) / radius) et := by
  have h1 : HasDerivAt (fun t : ℝ => (t - mid) / radius) (1 / radius) et := by
    simpa using ((hasDerivAt_id et).sub_const mid).div_const radius
  have h2 := HasDerivAt.comp et (p.hasDerivAt ((et - mid) / radius)) h1
  rw [div_eq_mul_one_div]
  exact h2

end Verif.Interp
