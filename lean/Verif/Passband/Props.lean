import Verif.Passband.Area
import Mathlib.Tactic.NormNum

/-! # Passbands and the ozone table -/

namespace Verif.Passband.Props
open Verif.Passband Set

/-- Wavelength brought into the range of the samples. -/
noncomputable def into (a b x : ℝ) : ℝ := max a (min b x)

theorem into_mem {a b : ℝ} (h : a ≤ b) (x : ℝ) : a ≤ into a b x ∧ into a b x ≤ b :=
  ⟨le_max_left _ _, max_le h (min_le_left _ _)⟩

theorem into_mono {a b x y : ℝ} (h : x ≤ y) : into a b x ≤ into a b y := max_le_max le_rfl (min_le_min le_rfl h)

theorem into_id {a b x : ℝ} (h0 : a ≤ x) (h1 : x ≤ b) : into a b x = x := by
  unfold into; rw [min_eq_right h1, max_eq_right h0]

/-- The curve of a table that ends in zeros, or is clamped, is its chords carried on from the ends. -/
theorem at_into (o : Outside) (p q : ℚ × ℚ) (t : List (ℚ × ℚ)) (h : Inc (p :: t)) (hq : (p :: t).getLast? = some q)
    (h0 : o = .zero → p.2 = 0 ∧ q.2 = 0) (x : ℝ) : (⟨p :: t, o⟩ : Spectrum).at x = line (p :: t) (into p.1 q.1 x) := by
  have hle := inc_last h hq
  have hlast : line (p :: t) q.1 = q.2 := by
    obtain ⟨A, hA⟩ : ∃ A, p :: t = A ++ [q] := by
      have hne : (p :: t) ≠ [] := by simp
      refine ⟨(p :: t).dropLast, ?_⟩
      have e := List.dropLast_append_getLast hne
      rw [List.getLast?_eq_some_getLast hne, Option.some.injEq] at hq
      rw [hq] at e
      exact e.symm
    rw [hA] at h ⊢
    rw [line_suffix _ _ _ h le_rfl]
    rfl
  unfold Spectrum.at
  simp only [List.head?_cons, hq]
  split
  · rename_i e
    have : into (p.1 : ℝ) q.1 x = p.1 := by
      unfold into
      rw [min_eq_right (e.le.trans hle), max_eq_left e.le]
    rw [this, line_first _ _ h]
    cases o with
    | zero => simp [(h0 rfl).1]
    | clamp => rfl
  · split
    · rename_i e
      have : into (p.1 : ℝ) q.1 x = q.1 := by
        unfold into
        rw [min_eq_left e.le, max_eq_right hle]
      rw [this, hlast]
      cases o with
      | zero => simp [(h0 rfl).2]
      | clamp => rfl
    · rename_i e f
      rw [into_id (not_lt.1 e) (not_lt.1 f)]

section General
variable {o : Outside} {p q : ℚ × ℚ} {t : List (ℚ × ℚ)} (h : Inc (p :: t)) (hq : (p :: t).getLast? = some q)
  (h0 : o = .zero → p.2 = 0 ∧ q.2 = 0)
include h hq h0

theorem at_continuous : Continuous (⟨p :: t, o⟩ : Spectrum).at := by
  have e : (⟨p :: t, o⟩ : Spectrum).at = fun x => line (p :: t) (into p.1 q.1 x) := funext (at_into o p q t h hq h0)
  rw [e]
  refine (line_continuous _ h).comp ?_
  unfold into
  fun_prop

theorem at_range {lo hi : ℝ} (hb : ∀ z ∈ p :: t, lo ≤ (z.2 : ℝ) ∧ (z.2 : ℝ) ≤ hi) (x : ℝ) :
    lo ≤ (⟨p :: t, o⟩ : Spectrum).at x ∧ (⟨p :: t, o⟩ : Spectrum).at x ≤ hi := by
  rw [at_into o p q t h hq h0]
  exact line_range _ _ h hb (into_mem (inc_last h hq) x).1

theorem infix_range {a c : ℚ × ℚ} (hi : [a, c] <:+: p :: t) : (p.1 : ℝ) ≤ a.1 ∧ (c.1 : ℝ) ≤ q.1 := by
  obtain ⟨A, B, e⟩ := hi
  have e1 : A ++ [a, c] ++ B = A ++ a :: c :: B := by simp
  constructor
  · cases A with
    | nil =>
      simp only [List.nil_append, List.cons_append, List.cons.injEq] at e
      rw [e.1]
    | cons z A =>
      simp only [List.cons_append, List.cons.injEq] at e
      obtain ⟨rfl, e⟩ := e
      have h1 : Inc (z :: (A ++ [a])) := by
        refine List.IsChain.infix h ⟨[], c :: B, ?_⟩
        rw [← e]; simp
      exact inc_last h1 (by rw [← List.cons_append, List.getLast?_concat])
  · have h1 : Inc (c :: B) := by
      refine List.IsChain.infix h ⟨A ++ [a], [], ?_⟩
      rw [← e]; simp
    refine inc_last h1 ?_
    rw [← hq, ← e, e1]
    rw [List.getLast?_append_of_ne_nil _ (by simp), List.getLast?_cons_cons]

theorem at_chords : Spec.Chords (p :: t) (⟨p :: t, o⟩ : Spectrum).at := by
  intro a c hi x h1 h2
  have hr := infix_range h hq h0 hi
  rw [at_into o p q t h hq h0, into_id (hr.1.trans h1) (h2.trans hr.2)]
  exact line_chords _ h a c hi x h1 h2

theorem at_peak {A B : List (ℚ × ℚ)} {k : ℚ × ℚ} (e : p :: t = A ++ k :: B) (hA : A ≠ []) (hu : Up (A ++ [k]))
    (hd : Down (k :: B)) : Spec.SinglePeak (⟨p :: t, o⟩ : Spectrum).at k.1 := by
  have hp : (p.1 : ℝ) ≤ k.1 := by
    cases A with
    | nil => exact absurd rfl hA
    | cons z A =>
      simp only [List.cons_append, List.cons.injEq] at e
      obtain ⟨rfl, e⟩ := e
      have h1 : Inc (p :: (A ++ [k])) := by
        refine List.IsChain.infix h ⟨[], B, ?_⟩
        rw [e]; simp
      exact inc_last h1 (by rw [← List.cons_append, List.getLast?_concat])
  have hk : (k.1 : ℝ) ≤ q.1 := by
    have h1 : Inc (k :: B) := by
      refine List.IsChain.infix h ⟨A, [], ?_⟩
      rw [e]; simp
    refine inc_last h1 ?_
    rw [← hq, e, List.getLast?_append_of_ne_nil _ (by simp)]
  constructor
  · intro x hx y hy hxy
    rw [mem_Iic] at hx hy
    rw [at_into o p q t h hq h0, at_into o p q t h hq h0]
    have hxy' := into_mono (a := p.1) (b := q.1) hxy
    have hy' : into (p.1 : ℝ) q.1 y ≤ k.1 := max_le hp ((min_le_right _ _).trans hy)
    have hx' := (into_mem (inc_last h hq) x).1
    rw [e] at h ⊢
    have l1 := (line_prefix A B k h (hxy'.trans hy')).resolve_right hA
    have l2 := (line_prefix A B k h hy').resolve_right hA
    rw [l1, l2]
    cases A with
    | nil => exact absurd rfl hA
    | cons z A =>
      simp only [List.cons_append, List.cons.injEq] at e
      obtain ⟨rfl, e⟩ := e
      exact line_up _ _ (List.IsChain.infix h ⟨[], B, by simp⟩) hu hx' hxy'
  · intro x hx y hy hxy
    rw [mem_Ici] at hx hy
    rw [at_into o p q t h hq h0, at_into o p q t h hq h0]
    have hxy' := into_mono (a := p.1) (b := q.1) hxy
    have hx' : (k.1 : ℝ) ≤ into p.1 q.1 x := le_max_of_le_right (le_min hk hx)
    rw [e] at h ⊢
    rw [line_suffix A B k h hx', line_suffix A B k h (hx'.trans hxy')]
    exact line_down _ _ (List.IsChain.infix h ⟨A, [], by simp⟩) hd hx' hxy'

theorem at_integrals : ∫ x in (p.1 : ℝ)..q.1, (⟨p :: t, o⟩ : Spectrum).at x = area (p :: t) ∧
    ∫ x in (p.1 : ℝ)..q.1, x * (⟨p :: t, o⟩ : Spectrum).at x = moment (p :: t) := by
  constructor
  · rw [← line_area t p q h hq]
    apply intervalIntegral.integral_congr
    intro x hx
    rw [uIcc_of_le (inc_last h hq)] at hx
    rw [at_into o p q t h hq h0, into_id hx.1 hx.2]
  · rw [← line_moment t p q h hq]
    apply intervalIntegral.integral_congr
    intro x hx
    rw [uIcc_of_le (inc_last h hq)] at hx
    simp only
    rw [at_into o p q t h hq h0, into_id hx.1 hx.2]

end General

/-- Half the light passes exactly between the two crossings of the chords. -/
theorem half_width {f : ℝ → ℝ} {k : ℝ} (hk : Spec.SinglePeak f k) {a b ya yb c d yc yd lo hi : ℝ}
    (hl : ∀ x, a ≤ x → x ≤ b → f x * (b - a) = ya * (b - x) + yb * (x - a))
    (hr : ∀ x, c ≤ x → x ≤ d → f x * (d - c) = yc * (d - x) + yd * (x - c))
    (hab : a < b) (hbk : b ≤ k) (hkc : k ≤ c) (hcd : c < d) (h1 : ya < 1 / 2) (h2 : 1 / 2 ≤ yb) (h3 : 1 / 2 ≤ yc)
    (h4 : yd < 1 / 2) (elo : (lo - a) * (yb - ya) = (1 / 2 - ya) * (b - a)) (ehi : (d - hi) * (yc - yd) = (1 / 2 - yd) * (d - c)) :
    Spec.HalfWidth f lo hi := by
  have e1 : 0 < yb - ya := by linarith
  have e2 : 0 < yc - yd := by linarith
  have d1 : 0 < b - a := by linarith
  have d2 : 0 < d - c := by linarith
  have hlo : a < lo := by
    by_contra hh
    nlinarith [mul_nonneg (sub_nonneg.2 (not_lt.1 hh)) e1.le, mul_pos (sub_pos.2 h1) d1]
  have hlb : lo ≤ b := by
    by_contra hh
    nlinarith [mul_pos (sub_pos.2 (not_le.1 hh)) e1, mul_nonneg (sub_nonneg.2 h2) d1.le]
  have hhi : hi < d := by
    by_contra hh
    nlinarith [mul_nonneg (sub_nonneg.2 (not_lt.1 hh)) e2.le, mul_pos (sub_pos.2 h4) d2]
  have hch : c ≤ hi := by
    by_contra hh
    nlinarith [mul_pos (sub_pos.2 (not_le.1 hh)) e2, mul_nonneg (sub_nonneg.2 h3) d2.le]
  have flo : f lo = 1 / 2 := by
    have := hl lo hlo.le hlb
    have : (f lo - 1 / 2) * (b - a) = 0 := by linear_combination this + elo
    rcases mul_eq_zero.1 this with z | z <;> linarith
  have fhi : f hi = 1 / 2 := by
    have := hr hi hch hhi.le
    have : (f hi - 1 / 2) * (d - c) = 0 := by linear_combination this + ehi
    rcases mul_eq_zero.1 this with z | z <;> linarith
  have left : ∀ x, x < lo → f x < 1 / 2 := by
    have near : ∀ x, a ≤ x → x < lo → f x < 1 / 2 := by
      intro x h5 h6
      have := hl x h5 (h6.le.trans hlb)
      by_contra hh
      nlinarith [mul_nonneg (sub_nonneg.2 (not_lt.1 hh)) d1.le, mul_pos (sub_pos.2 h6) e1]
    intro x hx
    rcases le_total a x with z | z
    · exact near x z hx
    · exact (hk.1 (mem_Iic.2 (z.trans (hab.le.trans hbk))) (mem_Iic.2 (hab.le.trans hbk)) z).trans_lt (near a le_rfl hlo)
  have right : ∀ x, hi < x → f x < 1 / 2 := by
    have near : ∀ x, x ≤ d → hi < x → f x < 1 / 2 := by
      intro x h5 h6
      have := hr x (hch.trans h6.le) h5
      by_contra hh
      nlinarith [mul_nonneg (sub_nonneg.2 (not_lt.1 hh)) d2.le, mul_pos (sub_pos.2 h6) e2]
    intro x hx
    rcases le_total x d with z | z
    · exact near x z hx
    · exact (hk.2 (mem_Ici.2 (hkc.trans hcd.le)) (mem_Ici.2 (hkc.trans (hcd.le.trans z))) z).trans_lt (near d le_rfl hhi)
  intro x
  constructor
  · intro hx
    constructor
    · by_contra hh; linarith [left x (not_le.1 hh)]
    · by_contra hh; linarith [right x (not_le.1 hh)]
  · rintro ⟨h5, h6⟩
    rcases le_total x k with z | z
    · rw [← flo]; exact hk.1 (mem_Iic.2 (h5.trans z)) (mem_Iic.2 z) h5
    · rw [← fhi]; exact hk.2 (mem_Ici.2 z) (mem_Ici.2 (z.trans h6)) h6

open _root_.Verif.Passband.Spec (Band published blue red peak width flatMean)

/-- The accessor of a band (bessell1990.rs:180-240). -/
def curve : Band → Option Spectrum
  | .U => u | .B => b | .V => v | .R => r | .I => i

/-- Every accessor answers, with the published samples and nothing outside them. -/
theorem loaded (c : Band) : curve c = some ⟨published c, .zero⟩ := by
  cases c <;> decide +kernel

theorem johnson : johnsonB = curve .B ∧ johnsonV = curve .V := ⟨rfl, rfl⟩

/-- Number of samples before the peak. -/
def before : Band → ℕ
  | .U => 14 | .B => 6 | .V => 6 | .R => 5 | .I => 10

/-- What the kernel checks of the five tables. -/
theorem checked (c : Band) : increasing (published c) = true ∧ (published c).head? = some (blue c, 0) ∧
    (published c).getLast? = some (red c, 0) ∧ (∀ z ∈ published c, 0 ≤ z.2 ∧ z.2 ≤ 1) ∧
    published c = (published c).take (before c) ++ (peak c, 1) :: (published c).drop (before c + 1) ∧
    (published c).take (before c) ≠ [] ∧
    ((published c).take (before c) ++ [(peak c, 1)]).IsChain (fun p q : ℚ × ℚ => p.2 ≤ q.2) ∧
    ((peak c, 1) :: (published c).drop (before c + 1)).IsChain (fun p q : ℚ × ℚ => q.2 ≤ p.2) := by
  cases c <;> decide +kernel

theorem split_table (c : Band) : ∃ t, published c = (blue c, 0) :: t := by
  have := (checked c).2.1
  cases h : published c with
  | nil => rw [h] at this; cases this
  | cons p t => rw [h] at this; cases this; exact ⟨t, rfl⟩

/-- **C204** The curve of every band: through the published samples, never below zero or above one, without jumps,
zero outside the published range, rising to full throughput and falling from there. -/
theorem passband (c : Band) : ∃ s, curve c = some s ∧ Spec.Chords (published c) s.at ∧ Continuous s.at ∧
    (∀ x, 0 ≤ s.at x ∧ s.at x ≤ 1) ∧ (∀ x : ℝ, x ≤ blue c ∨ (red c : ℝ) ≤ x → s.at x = 0) ∧
    Spec.SinglePeak s.at (peak c) ∧ s.at (peak c) = 1 := by
  obtain ⟨h1, h2, h3, h4, h5, h6, h7, h8⟩ := checked c
  obtain ⟨t, ht⟩ := split_table c
  refine ⟨_, loaded c, ?_⟩
  have hi := inc_of h1
  rw [ht] at hi h3 h4 ⊢
  have hz : Outside.zero = .zero → ((blue c, 0) : ℚ × ℚ).2 = 0 ∧ ((red c, 0) : ℚ × ℚ).2 = 0 := fun _ => ⟨rfl, rfl⟩
  have hle := inc_last hi h3
  simp only at hle
  refine ⟨at_chords hi h3 hz, at_continuous hi h3 hz, ?_, ?_, ?_, ?_⟩
  · refine at_range hi h3 hz ?_
    intro z hz
    have := h4 z hz
    exact ⟨by exact_mod_cast this.1, by exact_mod_cast this.2⟩
  · intro x hx
    rw [at_into _ _ _ _ hi h3 hz]
    simp only
    rcases hx with hx | hx
    · have : into (blue c : ℝ) (red c) x = blue c := by
        unfold into
        rw [min_eq_right (hx.trans hle), max_eq_left hx]
      rw [this]
      have := line_first _ _ hi
      simpa using this
    · have : into (blue c : ℝ) (red c) x = into (blue c) (red c) (red c) := by
        unfold into
        rw [min_eq_left hx, min_self]
      rw [this]
      have h9 := at_into .zero _ _ _ hi h3 hz (red c)
      simp only at h9
      rw [← h9]
      unfold Spectrum.at
      simp only [List.head?_cons, h3]
      rw [if_neg (not_lt.2 hle), if_neg (lt_irrefl _)]
      obtain ⟨A, hA⟩ : ∃ A, (blue c, 0) :: t = A ++ [(red c, 0)] := by
        have hne : ((blue c, 0) :: t) ≠ [] := by simp
        refine ⟨((blue c, 0) :: t).dropLast, ?_⟩
        have e := List.dropLast_append_getLast hne
        rw [List.getLast?_eq_some_getLast hne, Option.some.injEq] at h3
        rw [h3] at e
        exact e.symm
      rw [hA] at hi ⊢
      rw [line_suffix _ _ _ hi le_rfl]
      simp [line]
  · rw [ht] at h5
    exact at_peak hi h3 hz h5 (by rw [← ht]; exact h6) (by rw [← ht]; exact h7) (by rw [← ht]; exact h8)
  · have hk : (blue c : ℝ) ≤ peak c ∧ (peak c : ℝ) ≤ red c := by
      cases c <;> norm_num [blue, peak, red]
    rw [at_into _ _ _ _ hi h3 hz]
    simp only
    rw [into_id hk.1 hk.2]
    rw [ht] at h5
    rw [h5] at hi ⊢
    have := line_suffix _ _ _ hi (x := peak c) le_rfl
    rw [this]
    have hi2 : Inc ((peak c, 1) :: List.drop (before c + 1) ((blue c, 0) :: t)) := List.IsChain.infix hi ⟨List.take (before c) ((blue c, 0) :: t), [], by simp⟩
    have := line_first _ _ hi2
    simpa using this

/-- The neighbours between which a band opens to one half, and those between which it closes. -/
def edges : Band → ((ℚ × ℚ) × (ℚ × ℚ)) × ((ℚ × ℚ) × (ℚ × ℚ))
  | .U => (((325, 0.423), (330, 0.56)), ((390, 0.625), (395, 0.423)))
  | .B => (((380, 0.134), (390, 0.567)), ((480, 0.536), (490, 0.424)))
  | .V => (((500, 0.458), (510, 0.78)), ((580, 0.574), (590, 0.461)))
  | .R => (((560, 0.23), (570, 0.74)), ((720, 0.51), (730, 0.46)))
  | .I => (((720, 0.232), (730, 0.555)), ((880, 0.56), (890, 0.33)))

theorem edges_in (c : Band) : [(edges c).1.1, (edges c).1.2] <:+: published c ∧ [(edges c).2.1, (edges c).2.2] <:+: published c := by
  cases c <;> decide +kernel

/-- **C205** Half the light or more passes in one interval only, and its length is the documented width within
3.3 nm. -/
theorem passband_width (c : Band) : ∃ s lo hi, curve c = some s ∧ Spec.HalfWidth s.at lo hi ∧ |(hi - lo) - width c| ≤ 3.3 := by
  obtain ⟨s, h1, h2, _, _, _, h3, _⟩ := passband c
  obtain ⟨e1, e2⟩ := edges_in c
  have k1 := h2 _ _ e1
  have k2 := h2 _ _ e2
  cases c
  · refine ⟨s, 44910 / 137, 79405 / 202, h1, half_width h3 k1 k2 ?_ ?_ ?_ ?_ ?_ ?_ ?_ ?_ ?_ ?_, ?_⟩ <;>
      norm_num [edges, peak, width, abs_le]
  · refine ⟨s, 168200 / 433, 6765 / 14, h1, half_width h3 k1 k2 ?_ ?_ ?_ ?_ ?_ ?_ ?_ ?_ ?_ ?_, ?_⟩ <;>
      norm_num [edges, peak, width, abs_le]
  · refine ⟨s, 11530 / 23, 66280 / 113, h1, half_width h3 k1 k2 ?_ ?_ ?_ ?_ ?_ ?_ ?_ ?_ ?_ ?_, ?_⟩ <;>
      norm_num [edges, peak, width, abs_le]
  · refine ⟨s, 9610 / 17, 722, h1, half_width h3 k1 k2 ?_ ?_ ?_ ?_ ?_ ?_ ?_ ?_ ?_ ?_, ?_⟩ <;>
      norm_num [edges, peak, width, abs_le]
  · refine ⟨s, 235240 / 323, 20300 / 23, h1, half_width h3 k1 k2 ?_ ?_ ?_ ?_ ?_ ?_ ?_ ?_ ?_ ?_, ?_⟩ <;>
      norm_num [edges, peak, width, abs_le]

/-- The mean wavelength of the curve, as an integral, is the documented one within 0.9 nm. -/
theorem passband_mean (c : Band) : ∃ s, curve c = some s ∧ 0 < ∫ x in (blue c : ℝ)..red c, s.at x ∧
    |Spec.mean s.at (blue c) (red c) - flatMean c| ≤ 9 / 10 := by
  obtain ⟨h1, _, h3, _⟩ := checked c
  obtain ⟨t, ht⟩ := split_table c
  refine ⟨_, loaded c, ?_⟩
  have hi := inc_of h1
  rw [ht] at hi h3
  obtain ⟨a, m⟩ := at_integrals (o := .zero) hi h3 (fun _ => ⟨rfl, rfl⟩)
  rw [← ht] at a m
  simp only at a m
  have hk : 0 < area (published c) ∧ |moment (published c) / area (published c) - flatMean c| ≤ 9 / 10 := by
    cases c <;> decide +kernel
  rw [Spec.mean, a, m]
  refine ⟨by exact_mod_cast hk.1, ?_⟩
  have h9 := hk.2
  rw [abs_le] at h9 ⊢
  constructor
  · have := (Rat.cast_le (K := ℝ)).2 h9.1
    push_cast at this
    exact this
  · have := (Rat.cast_le (K := ℝ)).2 h9.2
    push_cast at this
    exact this

/-- What the kernel checks of the ozone table. -/
theorem ozone_checked : increasing ozone.table = true ∧ ozone.table.head? = some (300, 0.0869) ∧
    ozone.table.getLast? = some (1000, 1) ∧ ∀ z ∈ ozone.table, 0.0869 ≤ z.2 ∧ z.2 ≤ 1 := by
  refine ⟨?_, ?_, ?_, ?_⟩ <;> decide +kernel

/-- **C206** The ozone transmittance at any wavelength: on the chords of the table, without jumps, never outside
`[0.0869, 1]`, and held at the first and last sample beyond them. -/
theorem ozone_curve : Spec.Chords ozone.table transmittanceAt ∧ Continuous transmittanceAt ∧
    (∀ nm, 0.0869 ≤ transmittanceAt nm ∧ transmittanceAt nm ≤ 1) ∧ (∀ nm ≤ 300, transmittanceAt nm = 0.0869) ∧
    ∀ nm ≥ 1000, transmittanceAt nm = 1 := by
  obtain ⟨h1, h2, h3, h4⟩ := ozone_checked
  have hi := inc_of h1
  obtain ⟨t, ht⟩ : ∃ t, ozone.table = (300, 0.0869) :: t := by
    cases h : ozone.table with
    | nil => rw [h] at h2; cases h2
    | cons p t => rw [h, List.head?_cons, Option.some.injEq] at h2; exact ⟨t, by rw [h2]⟩
  have hs : ozone = ⟨(300, 0.0869) :: t, .clamp⟩ := by
    rw [← ht]; rfl
  have hf : transmittanceAt = (⟨(300, 0.0869) :: t, .clamp⟩ : Spectrum).at := by
    funext x; rw [transmittanceAt, hs]
  rw [ht] at hi h3 h4
  have hz : Outside.clamp = .zero → ((300, 0.0869) : ℚ × ℚ).2 = 0 ∧ ((1000, 1) : ℚ × ℚ).2 = 0 := fun h => by cases h
  rw [hf, ht]
  have hlast : (⟨(300, 0.0869) :: t, .clamp⟩ : Spectrum).at 1000 = 1 ∧ ∀ x > 1000, (⟨(300, 0.0869) :: t, .clamp⟩ : Spectrum).at x = 1 := by
    have hx : ∀ x > (1000 : ℝ), (⟨(300, 0.0869) :: t, .clamp⟩ : Spectrum).at x = 1 := by
      intro x hx
      unfold Spectrum.at
      simp only [List.head?_cons, h3]
      rw [if_neg (by push_cast; linarith), if_pos (by push_cast; linarith)]
      norm_num
    refine ⟨?_, hx⟩
    have e := at_into .clamp _ _ _ hi h3 hz 1000
    have e2 := at_into .clamp _ _ _ hi h3 hz 1001
    rw [e, ← hx 1001 (by norm_num), e2]
    congr 1
    norm_num [into]
  refine ⟨at_chords hi h3 hz, at_continuous hi h3 hz, ?_, ?_, ?_⟩
  · refine at_range hi h3 hz ?_
    intro z hz
    obtain ⟨a, c⟩ := h4 z hz
    have a' : ((0.0869 : ℚ) : ℝ) ≤ z.2 := by exact_mod_cast a
    norm_num at a' ⊢
    exact ⟨a', by exact_mod_cast c⟩
  · intro x hx
    have e := at_into .clamp _ _ _ hi h3 hz x
    have : into (((300 : ℚ) : ℝ)) ((1000 : ℚ) : ℝ) x = ((300 : ℚ) : ℝ) := by
      unfold into
      push_cast
      rw [min_eq_right (by linarith), max_eq_left hx]
    rw [e]
    simp only
    rw [this]
    have e3 := line_first _ _ hi
    simp only at e3
    rw [e3]
    norm_num
  · intro x hx
    rcases eq_or_lt_of_le hx with z | z
    · rw [← z]; exact hlast.1
    · exact hlast.2 x z

end Verif.Passband.Props
