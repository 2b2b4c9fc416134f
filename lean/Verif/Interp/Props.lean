import Verif.Interp.Cheb
import Mathlib.Tactic.IntervalCases

/-!
Properties C26 (Chebyshev record location), C27 (Lagrange), C28 (Hermite), C29 (window), C61
(velocity is the derivative of position) and C63 (segment stack).
-/
namespace Verif.Interp.Props
open Polynomial Verif.Text Verif.Interp

section field
variable {K : Type} [Field K] [LinearOrder K] [IsStrictOrderedRing K]

/-! ### C29: the interpolation window -/

/-- A window has the requested number of states, lies in the table and, with at least two states,
contains two neighbouring states around the epoch. An exact hit is an index of the epoch. -/
theorem window_brackets {d : Discrete K} {et : K} {count : Nat} (hs : d.epochs.Pairwise (· < ·))
    (hn : d.epochs.length = d.nRecords) {w : Window} (h : locateOrWindow d et count = .ok w) :
    (∀ i, w = .exact i → ∃ h : i < d.epochs.length, d.epochs[i] = et) ∧
    (∀ first c, w = .window first c → c = count ∧ 1 ≤ c ∧ first + c ≤ d.nRecords ∧ et ∉ d.epochs ∧
      (2 ≤ c → ∃ k, first ≤ k ∧ k + 1 < first + c ∧ d.epochs.getD k 0 < et ∧
        et < d.epochs.getD (k + 1) 0)) :=
  window_spec hs hn h

/-- In coverage there is a window whenever the table is large enough. -/
theorem window_exists {d : Discrete K} {et : K} {count : Nat} (hn : d.epochs.length = d.nRecords)
    (hc : 1 ≤ count) (hcn : count ≤ d.nRecords) (hlo : d.epochs.getD 0 0 ≤ et)
    (hhi : et ≤ d.epochs.getD (d.nRecords - 1) 0) : ∃ w, locateOrWindow d et count = .ok w :=
  window_total hn hc hcn hlo hhi

/-- Outside coverage the epoch is refused. -/
theorem window_outside {d : Discrete K} {et : K} {count : Nat} (hn : d.epochs.length = d.nRecords)
    (h : et < d.epochs.getD 0 0 ∨ d.epochs.getD (d.nRecords - 1) 0 < et) :
    locateOrWindow d et count = .err .outOfCoverage := by
  unfold locateOrWindow
  split
  · rename_i start stop h1 h2
    have hlen : 0 < d.epochs.length := List.length_pos_iff.mpr (fun h => by rw [h] at h1; simp at h1)
    rw [List.head?_eq_getElem?, List.getElem?_eq_getElem hlen] at h1
    rw [List.getLast?_eq_getElem?, List.getElem?_eq_getElem (by omega)] at h2
    rw [List.getD_eq_getElem _ _ hlen, List.getD_eq_getElem _ _ (by omega)] at h
    rw [if_pos]
    right
    simp only [Option.some.injEq] at h1 h2
    rw [← h1, ← h2]
    simpa [hn] using h
  · rfl

/-- The window is centred: unless an end of the table is in the way, half of its states lie at or
before the epoch. -/
theorem window_centred {d : Discrete K} {et : K} {count first c : Nat}
    (h : locateOrWindow d et count = .ok (.window first c)) :
    first = 0 ∨ first + c = d.nRecords ∨
      d.epochs.countP (fun e => decide (e < et)) = first + count / 2 := by
  unfold locateOrWindow at h
  split at h
  · split at h
    · simp at h
    · unfold binarySearch at h
      by_cases hm : et ∈ d.epochs
      · simp [hm] at h
      · simp only [hm, if_false] at h
        split_ifs at h with h1 h2
        · simp only [Res.ok.injEq, Window.window.injEq] at h
          obtain ⟨rfl, rfl⟩ := h
          right; left; omega
        · simp only [Res.ok.injEq, Window.window.injEq] at h
          obtain ⟨rfl, rfl⟩ := h
          by_cases hz : d.epochs.countP (fun e => decide (e < et)) ≤ count / 2
          · left; omega
          · right; right; omega
  · simp at h

/-- Two states on each side of the epoch in the middle of the table. -/
example : locateOrWindow (⟨4, 6, [], [0, 1, 2, 3, 4, 5]⟩ : Discrete ℚ) (5 / 2) 4 = .ok (.window 1 4) := by
  decide +kernel

/-- Shifted at the right end. -/
example : locateOrWindow (⟨4, 6, [], [0, 1, 2, 3, 4, 5]⟩ : Discrete ℚ) (9 / 2) 4 = .ok (.window 2 4) := by
  decide +kernel

/-! ### C27: Lagrange -/

/-- The interpolant through samples of a polynomial of lower degree is that polynomial. -/
theorem lagrange_reproduces_polynomial {eps : K} (h0 : 0 ≤ eps) {xs ys : List K}
    (hl : ys.length = xs.length) (hne : xs ≠ []) (hsp : Spaced eps xs) {p : K[X]}
    (hdeg : p.degree < xs.length) (hv : ∀ i < xs.length, p.eval (xs.getD i 0) = ys.getD i 0) (x : K) :
    lagrangeValue eps xs ys x = .ok (p.eval x) :=
  lagrange_poly h0 hl hne hsp hdeg hv x

/-- At a node the interpolant is the tabulated value, whatever the data. -/
theorem lagrange_at_node {eps : K} (h0 : 0 ≤ eps) {xs ys : List K} (hl : ys.length = xs.length)
    (hne : xs ≠ []) (hsp : Spaced eps xs) {i : Nat} (hi : i < xs.length) :
    lagrangeValue eps xs ys (xs.getD i 0) = .ok (ys.getD i 0) :=
  lagrange_node h0 hl hne hsp hi

theorem mapM_ok {α β : Type} {f : α → Res Err β} {g : α → β} :
    ∀ {l : List α}, (∀ a ∈ l, f a = .ok (g a)) → l.mapM f = .ok (l.map g)
  | [], _ => rfl
  | a :: l, h => by
    rw [List.mapM_cons, h a (by simp), mapM_ok (fun b hb => h b (by simp [hb]))]
    rfl

/-- The shape that the readers establish: `n` epochs, `6 n` state values. -/
structure Shaped (d : Discrete K) : Prop where
  epochs : d.epochs.length = d.nRecords
  states : d.states.length = d.nRecords * 6

/-- Component `c` of the tabulated state `k`. -/
def tab (d : Discrete K) (k c : Nat) : K := d.states.getD (k * 6 + c) 0

theorem state_record_eq {d : Discrete K} (hd : Shaped d) {i : Nat} (hi : i < d.nRecords) :
    stateRecord d i = .ok ((List.range 6).map (tab d i)) := by
  have h6 : i * 6 + 6 ≤ d.states.length := by have := hd.states; omega
  unfold stateRecord
  rw [sliceL_eq (by omega) h6]
  simp only [Res.ok.injEq]
  rw [show i * 6 + 6 - i * 6 = 6 by omega]
  apply List.ext_getElem
  · rw [slice_length h6]; simp
  · intro k h1 h2
    rw [slice_length h6] at h1
    rw [List.getElem_map, List.getElem_range, tab, ← slice_getD h1, List.getD_eq_getElem]

theorem locate_at_epoch {d : Discrete K} (hd : Shaped d) (hs : d.epochs.Pairwise (· < ·)) {i count : Nat}
    (hi : i < d.nRecords) : locateOrWindow d (d.epochs.getD i 0) count = .ok (.exact i) := by
  have hi' : i < d.epochs.length := by rw [hd.epochs]; exact hi
  have hlen : 0 < d.epochs.length := by omega
  have h1 : d.epochs.head? = some d.epochs[0] := by
    rw [List.head?_eq_getElem?, List.getElem?_eq_getElem hlen]
  have h2 : d.epochs.getLast? = some d.epochs[d.epochs.length - 1] := by
    rw [List.getLast?_eq_getElem?, List.getElem?_eq_getElem (by omega)]
  have hle : ∀ a b (ha : a < d.epochs.length) (hb : b < d.epochs.length), a ≤ b →
      d.epochs[a] ≤ d.epochs[b] := by
    intro a b ha hb hab
    rcases Nat.eq_or_lt_of_le hab with rfl | hlt
    · exact le_rfl
    · exact (List.pairwise_iff_getElem.mp hs a b ha hb hlt).le
  rw [List.getD_eq_getElem _ _ hi']
  unfold locateOrWindow
  rw [h1, h2]
  simp only
  rw [if_neg]
  · unfold binarySearch
    rw [if_pos (List.getElem_mem _)]
    simp only
    have hnd : d.epochs.Nodup := hs.imp (fun h => h.ne)
    rw [hnd.idxOf_getElem i hi']
  · push Not
    refine ⟨by omega, hle 0 i hlen hi' (by omega), hle i _ hi' (by omega) (by omega)⟩

/-- Type 9 segment, at a tabulated epoch: the tabulated state, all six components. -/
theorem type9_at_tabulated_epoch {eps : K} {d : Discrete K} (hd : Shaped d)
    (hs : d.epochs.Pairwise (· < ·)) {i : Nat} (hi : i < d.nRecords) :
    evalLagrange eps d (d.epochs.getD i 0) = .ok ((List.range 6).map (tab d i)) := by
  unfold evalLagrange
  rw [locate_at_epoch hd hs hi]
  simp only [Res.bind_ok]
  exact state_record_eq hd hi

theorem exact_state {d : Discrete K} (hd : Shaped d) {et : K} {i : Nat}
    (he : ∃ h : i < d.epochs.length, d.epochs[i] = et) :
    i < d.nRecords ∧ stateRecord d i = .ok ((List.range 6).map (tab d i)) ∧ d.epochs.getD i 0 = et := by
  obtain ⟨h1, h2⟩ := he
  have hi : i < d.nRecords := by rw [← hd.epochs]; exact h1
  exact ⟨hi, state_record_eq hd hi, by rw [List.getD_eq_getElem _ _ h1, h2]⟩

/-- Type 9 segment: if every component is sampled from a polynomial of degree at most the segment's
degree, the evaluation returns those polynomials at every epoch in coverage. -/
theorem type9_reproduces_polynomial {eps : K} (h0 : 0 ≤ eps) {d : Discrete K} (hd : Shaped d)
    (hsp : Spaced eps d.epochs) (hsize : d.size + 1 ≤ d.nRecords) {P : Nat → K[X]}
    (hdeg : ∀ c < 6, (P c).degree < (d.size + 1 : Nat))
    (hP : ∀ k < d.nRecords, ∀ c < 6, tab d k c = (P c).eval (d.epochs.getD k 0)) {et : K}
    (hlo : d.epochs.getD 0 0 ≤ et) (hhi : et ≤ d.epochs.getD (d.nRecords - 1) 0) :
    evalLagrange eps d et = .ok ((List.range 6).map (fun c => (P c).eval et)) := by
  obtain ⟨w, hw⟩ := window_total (count := d.size + 1) hd.epochs (by omega) hsize hlo hhi
  obtain ⟨s1, s2⟩ := window_spec (spaced_sorted h0 hsp) hd.epochs hw
  unfold evalLagrange
  rw [hw]
  simp only [Res.bind_ok]
  cases w with
  | exact i =>
    obtain ⟨hi, e1, e2⟩ := exact_state hd (s1 i rfl)
    simp only
    rw [e1]
    congr 1
    apply List.map_congr_left
    intro c hc
    rw [hP i hi c (List.mem_range.mp hc), e2]
  | window first c =>
    obtain ⟨rfl, _, hin, _, _⟩ := s2 first c rfl
    simp only
    rw [sliceL_eq (by omega) (by rw [hd.epochs]; exact hin), Nat.add_sub_cancel_left]
    simp only [Res.orPanic, Res.bind_ok]
    apply mapM_ok
    intro comp hcomp
    have hc6 : comp < 6 := List.mem_range.mp hcomp
    rw [column_eq hd.states hin hc6]
    simp only [Res.bind_ok]
    have hl := slice_length (v := d.epochs) (a := first) (n := d.size + 1) (by rw [hd.epochs]; exact hin)
    apply lagrange_poly h0 (by rw [hl]; simp)
    · intro hnil; rw [hnil] at hl; simp at hl
    · exact spaced_slice hsp _ _
    · rw [hl]; exact hdeg comp hc6
    · intro i hi
      rw [hl] at hi
      rw [slice_getD hi, getD_range_map _ _ hi]
      exact (hP (first + i) (by omega) comp hc6).symm

/-- A line through three tabulated states, evaluated between them. -/
example : evalLagrange (1 / 10 ^ 9) (⟨1, 3, [1, 0, 0, 0, 0, 0, 3, 0, 0, 0, 0, 0, 7, 0, 0, 0, 0, 0],
    [0, 1, 3]⟩ : Discrete ℚ) 2 = .ok [5, 0, 0, 0, 0, 0] := by decide +kernel

/-- The same by the theorem, with `P 0 = 1 + 2 X`. -/
example : evalLagrange (1 / 10 ^ 9) (⟨1, 3, [1, 0, 0, 0, 0, 0, 3, 0, 0, 0, 0, 0, 7, 0, 0, 0, 0, 0],
    [0, 1, 3]⟩ : Discrete ℚ) 2 =
    .ok ((List.range 6).map (fun c => (if c = 0 then (C 1 + C 2 * X : ℚ[X]) else 0).eval 2)) := by
  refine type9_reproduces_polynomial (by norm_num) ⟨rfl, rfl⟩ ?_ (by decide)
    (P := fun c => if c = 0 then (C 1 + C 2 * X : ℚ[X]) else 0) ?_ ?_ ?_ ?_
  · norm_num [Spaced]
  · intro c _
    dsimp only
    split
    · refine lt_of_le_of_lt (degree_add_le_of_degree_le (n := 1) ?_ ?_) (by norm_num)
      · exact le_trans degree_C_le (by norm_num)
      · exact degree_C_mul_X_le 2
    · rw [degree_zero]; exact WithBot.bot_lt_coe _
  · intro k hk c hc
    simp only at hk
    interval_cases k <;> interval_cases c <;> norm_num [tab]
  · norm_num
  · norm_num

/-! ### C28: Hermite -/

/-- Data sampled from a polynomial of degree below `2 n` and its derivative are reproduced, with the
derivative. -/
theorem hermite_reproduces_polynomial {eps : K} (h0 : 0 ≤ eps) {xs ys ds : List K}
    (hy : ys.length = xs.length) (hdl : ds.length = xs.length) (hne : xs ≠ []) (hsp : Spaced eps xs)
    {p : K[X]} (hdeg : p.degree < (2 * xs.length : Nat))
    (hv : ∀ i < xs.length, p.eval (xs.getD i 0) = ys.getD i 0)
    (hd : ∀ i < xs.length, (derivative p).eval (xs.getD i 0) = ds.getD i 0) (x : K) :
    hermite eps xs ys ds x = .ok (p.eval x, (derivative p).eval x) :=
  hermite_poly h0 hy hdl hne hsp hdeg hv hd x

/-- For arbitrary data there is one polynomial of degree below `2 n` that the evaluation follows with
its derivative, and it takes the tabulated values and slopes at the nodes. -/
theorem hermite_osculates {eps : K} (h0 : 0 ≤ eps) {xs ys ds : List K} (hy : ys.length = xs.length)
    (hdl : ds.length = xs.length) (hne : xs ≠ []) (hsp : Spaced eps xs) :
    ∃ p : K[X], p.degree < (2 * xs.length : Nat) ∧
      (∀ x, hermite eps xs ys ds x = .ok (p.eval x, (derivative p).eval x)) ∧
      ∀ i < xs.length, hermite eps xs ys ds (xs.getD i 0) = .ok (ys.getD i 0, ds.getD i 0) := by
  obtain ⟨p, hdeg, hp⟩ := hermite_exists (K := K) (fun i => xs.getD i 0) (fun i => ys.getD i 0)
    (fun i => ds.getD i 0) (n := xs.length)
    (fun i hi j hj he => by by_contra hij; exact hsp.ne h0 hij hi hj he)
  have hall := fun x => hermite_poly h0 hy hdl hne hsp hdeg (fun i hi => (hp i hi).1)
    (fun i hi => (hp i hi).2) x
  exact ⟨p, hdeg, hall, fun i hi => by rw [hall, (hp i hi).1, (hp i hi).2]⟩

/-- Type 13 segment, at a tabulated epoch: the tabulated position and velocity. -/
theorem type13_at_tabulated_epoch {eps : K} {d : Discrete K} (hd : Shaped d)
    (hs : d.epochs.Pairwise (· < ·)) {i : Nat} (hi : i < d.nRecords) :
    evalHermite eps d (d.epochs.getD i 0) = .ok ((List.range 6).map (tab d i)) := by
  unfold evalHermite
  rw [locate_at_epoch hd hs hi]
  simp only [Res.bind_ok]
  exact state_record_eq hd hi

theorem axis_eq {eps : K} (h0 : 0 ≤ eps) {d : Discrete K} (hd : Shaped d) (hsp : Spaced eps d.epochs)
    {p : K[X]} {axis first count : Nat} (hax : axis < 3) (hc : 1 ≤ count)
    (hin : first + count ≤ d.nRecords) (hdeg : p.degree < (2 * count : Nat))
    (hp : ∀ k < d.nRecords, tab d k axis = p.eval (d.epochs.getD k 0) ∧
      tab d k (axis + 3) = (derivative p).eval (d.epochs.getD k 0)) (et : K) :
    hermiteAxis eps d first count ((d.epochs.drop first).take count) et axis =
      .ok (p.eval et, (derivative p).eval et) := by
  have hl := slice_length (v := d.epochs) (a := first) (n := count) (by rw [hd.epochs]; exact hin)
  unfold hermiteAxis
  rw [column_eq hd.states hin (by omega), column_eq hd.states hin (by omega)]
  simp only [Res.bind_ok]
  apply hermite_poly h0 (by rw [hl]; simp) (by rw [hl]; simp)
  · intro hnil; rw [hnil] at hl; simp at hl; omega
  · exact spaced_slice hsp _ _
  · rw [hl]; exact hdeg
  · intro i hi
    rw [hl] at hi
    rw [slice_getD hi, getD_range_map _ _ hi]
    exact (hp (first + i) (by omega)).1.symm
  · intro i hi
    rw [hl] at hi
    rw [slice_getD hi, getD_range_map _ _ hi]
    exact (hp (first + i) (by omega)).2.symm

/-- Type 13 segment: states sampled from polynomials of degree below twice the window and their
derivatives are reproduced at every epoch in coverage, position and velocity. -/
theorem type13_reproduces_polynomial {eps : K} (h0 : 0 ≤ eps) {d : Discrete K} (hd : Shaped d)
    (hsp : Spaced eps d.epochs) (hsize : 1 ≤ d.size) (hsize' : d.size ≤ d.nRecords) {P : Nat → K[X]}
    (hdeg : ∀ a < 3, (P a).degree < (2 * d.size : Nat))
    (hP : ∀ k < d.nRecords, ∀ a < 3, tab d k a = (P a).eval (d.epochs.getD k 0) ∧
      tab d k (a + 3) = (derivative (P a)).eval (d.epochs.getD k 0)) {et : K}
    (hlo : d.epochs.getD 0 0 ≤ et) (hhi : et ≤ d.epochs.getD (d.nRecords - 1) 0) :
    evalHermite eps d et = .ok ([0, 1, 2].map (fun a => (P a).eval et) ++
      [0, 1, 2].map (fun a => (derivative (P a)).eval et)) := by
  obtain ⟨w, hw⟩ := window_total (count := d.size) hd.epochs hsize hsize' hlo hhi
  obtain ⟨s1, s2⟩ := window_spec (spaced_sorted h0 hsp) hd.epochs hw
  unfold evalHermite
  rw [hw]
  simp only [Res.bind_ok]
  cases w with
  | exact i =>
    obtain ⟨hi, e1, e2⟩ := exact_state hd (s1 i rfl)
    simp only
    rw [e1]
    have e : List.range 6 = [0, 1, 2, 3, 4, 5] := rfl
    rw [e]
    have q0 := hP i hi 0 (by omega)
    have q1 := hP i hi 1 (by omega)
    have q2 := hP i hi 2 (by omega)
    rw [e2] at q0 q1 q2
    simp only [List.map_cons, List.map_nil, List.cons_append, List.nil_append]
    rw [q0.1, q1.1, q2.1, ← q0.2, ← q1.2, ← q2.2]
  | window first c =>
    obtain ⟨rfl, _, hin, _, _⟩ := s2 first c rfl
    simp only
    rw [sliceL_eq (by omega) (by rw [hd.epochs]; exact hin), Nat.add_sub_cancel_left]
    simp only [Res.orPanic, Res.bind_ok]
    rw [axis_eq h0 hd hsp (p := P 0) (by omega) hsize hin (hdeg 0 (by omega))
        (fun k hk => hP k hk 0 (by omega)),
      axis_eq h0 hd hsp (p := P 1) (by omega) hsize hin (hdeg 1 (by omega))
        (fun k hk => hP k hk 1 (by omega)),
      axis_eq h0 hd hsp (p := P 2) (by omega) hsize hin (hdeg 2 (by omega))
        (fun k hk => hP k hk 2 (by omega))]
    rfl

/-- A cubic with its slope, two states, evaluated between them: `x^3` at 1/2. -/
example : evalHermite (1 / 10 ^ 9) (⟨2, 2, [0, 0, 0, 0, 0, 0, 1, 0, 0, 3, 0, 0], [0, 1]⟩ : Discrete ℚ)
    (1 / 2) = .ok [1 / 8, 0, 0, 3 / 4, 0, 0] := by decide +kernel

/-- Two states, arbitrary values and slopes, reproduced at the nodes. -/
example : hermite (1 / 10 ^ 9 : ℚ) [0, 1, 5] [7, -2, 3] [1, 4, -6] 5 = .ok (3, -6) := by decide +kernel

/-! ### C26: Chebyshev record location -/

variable [FloorRing K]

/-- The record returned by `locate` is a record of the table, its interval contains the epoch and
midpoint and radius are its first two words. -/
theorem located_record_contains_epoch {c : Cheb K} {et mid radius : K} {idx : Nat} (hl : 0 < c.intlen)
    (hn : 1 ≤ c.nRecords) (h : locate c et = .ok (idx, mid, radius)) :
    idx < c.nRecords ∧ c.init + idx * c.intlen ≤ et ∧ et ≤ c.init + (idx + 1) * c.intlen ∧
      0 < radius ∧ c.records[idx * c.rsize]? = some mid ∧ c.records[idx * c.rsize + 1]? = some radius :=
  locate_sound hl hn h

/-- Records that state their own interval, as SPK files do. -/
def Nominal (init intlen : K) (rsize : Nat) (words : List K) (n : Nat) : Prop :=
  ∀ k < n, words.getD (k * rsize) 0 = init + (k + 1 / 2) * intlen ∧
    words.getD (k * rsize + 1) 0 = intlen / 2

theorem abs_tau {init intlen et mid radius : K} {k : Nat} (hl : 0 < intlen)
    (h1 : init + k * intlen ≤ et) (h2 : et ≤ init + (k + 1) * intlen)
    (hm : mid = init + (k + 1 / 2) * intlen) (hr : radius = intlen / 2) :
    |(et - mid) / radius| ≤ 1 := by
  have hpos : 0 < radius := by rw [hr]; linarith
  rw [abs_div, abs_of_pos hpos, div_le_one hpos, abs_le, hm, hr]
  constructor <;> linarith

/-- With nominal records every epoch in coverage is located and the normalised time is in [-1, 1]. -/
theorem locate_normalised {c : Cheb K} {et : K} (hl : 0 < c.intlen) (hn : 1 ≤ c.nRecords)
    (hlen : c.records.length = c.nRecords * c.rsize) (hr : 2 ≤ c.rsize)
    (hnom : Nominal c.init c.intlen c.rsize c.records c.nRecords)
    (h1 : c.init ≤ et) (h2 : et ≤ c.init + c.intlen * c.nRecords) :
    ∃ idx mid radius, locate c et = .ok (idx, mid, radius) ∧ |(et - mid) / radius| ≤ 1 := by
  have hp := locate_ne_panic (et := et) hl hn hlen hr
  have key : ∀ k < c.nRecords, locate c et = recordHead c k →
      ∃ idx mid radius, locate c et = .ok (idx, mid, radius) := by
    intro k hk he
    have hb : (k + 1) * c.rsize ≤ c.nRecords * c.rsize := Nat.mul_le_mul_right _ hk
    rw [Nat.add_mul, Nat.one_mul, ← hlen] at hb
    obtain ⟨m1, m2⟩ := hnom k hk
    refine ⟨k, c.records.getD (k * c.rsize) 0, c.records.getD (k * c.rsize + 1) 0, ?_⟩
    rw [he]
    unfold recordHead
    dsimp only
    rw [List.getElem?_eq_getElem (by omega), List.getElem?_eq_getElem (by omega)]
    rw [List.getD_eq_getElem _ _ (by omega)] at m2
    simp only
    rw [if_neg (by rw [m2, not_le]; linarith), List.getD_eq_getElem _ _ (by omega),
      List.getD_eq_getElem _ _ (by omega)]
  have hex : ∃ idx mid radius, locate c et = .ok (idx, mid, radius) := by
    rcases inside_or_end hl h1 h2 with rfl | ⟨k, hk, e1, e2⟩
    · exact key _ (by omega) (locate_end hl hn)
    · exact key k hk (locate_inside hl hk e1 e2)
  obtain ⟨idx, mid, radius, he⟩ := hex
  refine ⟨idx, mid, radius, he, ?_⟩
  obtain ⟨a1, a2, a3, a4, a5, a6⟩ := locate_sound hl hn he
  obtain ⟨m1, m2⟩ := hnom idx a1
  rw [List.getD_eq_getElem?_getD, a5] at m1
  rw [List.getD_eq_getElem?_getD, a6] at m2
  exact abs_tau hl a2 a3 m1 m2

/-- Outside coverage the epoch is refused. -/
theorem locate_outside {c : Cheb K} {et : K} (h : et < c.init ∨ c.init + c.intlen * c.nRecords < et) :
    locate c et = .err .outOfCoverage := by
  unfold locate
  dsimp only
  rw [if_pos h]

/-- Evaluation of a type 2 or type 3 record table never indexes out of range. -/
theorem eval_no_panic {ev evD : List K → K → K} {c : Cheb K} {et : K} (hl : 0 < c.intlen)
    (hn : 1 ≤ c.nRecords) (hlen : c.records.length = c.nRecords * c.rsize) :
    (c.rsize = 2 + 3 * c.ncoeff → evalType2 ev evD c et ≠ .panic) ∧
    (c.rsize = 2 + 6 * c.ncoeff → evalType3 ev c et ≠ .panic) := by
  constructor
  · intro hr
    have hp := locate_ne_panic (et := et) hl hn hlen (by omega)
    unfold evalType2
    cases hloc : locate c et with
    | panic => exact absurd hloc hp
    | err e => simp
    | ok t =>
      obtain ⟨idx, mid, radius⟩ := t
      have hk := (locate_sound hl hn hloc).1
      obtain ⟨l0, e0, _⟩ := coeffs_ok hlen hr hk (i := 0) (by omega)
      obtain ⟨l1, e1, _⟩ := coeffs_ok hlen hr hk (i := 1) (by omega)
      obtain ⟨l2, e2, _⟩ := coeffs_ok hlen hr hk (i := 2) (by omega)
      simp [e0, e1, e2]
  · intro hr
    have hp := locate_ne_panic (et := et) hl hn hlen (by omega)
    unfold evalType3
    cases hloc : locate c et with
    | panic => exact absurd hloc hp
    | err e => simp
    | ok t =>
      obtain ⟨idx, mid, radius⟩ := t
      have hk := (locate_sound hl hn hloc).1
      obtain ⟨l0, e0, _⟩ := coeffs_ok hlen hr hk (i := 0) (by omega)
      obtain ⟨l1, e1, _⟩ := coeffs_ok hlen hr hk (i := 1) (by omega)
      obtain ⟨l2, e2, _⟩ := coeffs_ok hlen hr hk (i := 2) (by omega)
      obtain ⟨l3, e3, _⟩ := coeffs_ok hlen hr hk (i := 3) (by omega)
      obtain ⟨l4, e4, _⟩ := coeffs_ok hlen hr hk (i := 4) (by omega)
      obtain ⟨l5, e5, _⟩ := coeffs_ok hlen hr hk (i := 5) (by omega)
      simp [e0, e1, e2, e3, e4, e5]

/-- `eval.rs`: in coverage, record `k` whose interval contains the epoch is handed over with its
normalised time; the time is in [-1, 1] for nominal records. -/
theorem dyn_locates {s : Dyn K} (hv : s.Valid) {et : K} (h1 : s.init ≤ et)
    (h2 : et ≤ s.init + s.intlen * s.nRecords) :
    ∃ k < s.nRecords, s.init + k * s.intlen ≤ et ∧ et ≤ s.init + (k + 1) * s.intlen ∧
      ∃ rec tau radius, tryLocate s et = .ok (rec, tau, radius) ∧
        rec.length = s.rsize ∧ (∀ j < s.rsize, rec.getD j 0 = s.data.getD (k * s.rsize + j) 0) ∧
        radius = rec.getD 1 0 ∧ tau = (et - rec.getD 0 0) / radius ∧
        (Nominal s.init s.intlen s.rsize s.data s.nRecords → |tau| ≤ 1) := by
  obtain ⟨k, hk, e1, e2, _, e3⟩ := tryLocate_ok hv h1 h2
  have hb : (k + 1) * s.rsize ≤ s.nRecords * s.rsize := Nat.mul_le_mul_right _ hk
  rw [Nat.add_mul, Nat.one_mul, ← hv.size] at hb
  have hr : 2 ≤ s.rsize := by rcases hv.shape with h | h <;> omega
  refine ⟨k, hk, e1, e2, _, _, _, e3, slice_length hb, fun j hj => slice_getD hj, ?_, ?_, ?_⟩
  · rw [slice_getD (by omega)]
  · rw [slice_getD (by omega)]; rfl
  · intro hnom
    obtain ⟨m1, m2⟩ := hnom k hk
    exact abs_tau hv.len e1 e2 m1 m2

/-- `eval.rs`: outside coverage the epoch is refused. -/
theorem dyn_outside {s : Dyn K} (hv : s.Valid) {et : K}
    (h : ¬ (s.init ≤ et ∧ et ≤ s.init + s.intlen * s.nRecords)) :
    tryLocate s et = .err .outOfCoverage := tryLocate_out hv h

/-- `eval.rs`: position and velocity never index out of range, and succeed exactly in coverage. -/
theorem dyn_total {ev evD : List K → K → K} {s : Dyn K} (hv : s.Valid) (et : K) :
    (s.init ≤ et ∧ et ≤ s.init + s.intlen * s.nRecords →
      (∃ p, tryPosition ev s et = .ok p ∧ p.length = 3) ∧
      ∃ v, tryVelocity ev evD s et = .ok v ∧ v.length = 3) ∧
    (¬ (s.init ≤ et ∧ et ≤ s.init + s.intlen * s.nRecords) →
      tryPosition ev s et = .err .outOfCoverage ∧ tryVelocity ev evD s et = .err .outOfCoverage) := by
  constructor
  · rintro ⟨h1, h2⟩
    obtain ⟨k, hk, _, _, _, e3⟩ := tryLocate_ok hv h1 h2
    have hge : 2 + 3 * s.ncoeff ≤ s.rsize := by rcases hv.shape with h | h <;> omega
    obtain ⟨l0, b0, _⟩ := block_ok hv hk (i := 0) (by omega)
    obtain ⟨l1, b1, _⟩ := block_ok hv hk (i := 1) (by omega)
    obtain ⟨l2, b2, _⟩ := block_ok hv hk (i := 2) (by omega)
    constructor
    · unfold tryPosition
      rw [e3]
      simp [b0, b1, b2]
    · unfold tryVelocity
      rw [e3]
      simp only [Res.bind_ok]
      split
      · rename_i h3
        have hr : s.rsize = 2 + 6 * s.ncoeff := by
          rcases hv.shape with h | h
          · exact h.2
          · exact absurd h3 h.1
        obtain ⟨l3, b3, _⟩ := block_ok hv hk (i := 3) (by omega)
        obtain ⟨l4, b4, _⟩ := block_ok hv hk (i := 4) (by omega)
        obtain ⟨l5, b5, _⟩ := block_ok hv hk (i := 5) (by omega)
        simp [b3, b4, b5]
      · simp [b0, b1, b2]
  · intro h
    unfold tryPosition tryVelocity
    rw [tryLocate_out hv h]
    exact ⟨rfl, rfl⟩

/-- A table of two records of one coefficient. -/
def twoRecords : Cheb ℚ := ⟨0, 10, 5, 1, 2, [5, 5, 1, 2, 3, 15, 5, 4, 5, 6]⟩

example : locate twoRecords 7 = .ok (0, 5, 5) ∧ locate twoRecords 10 = .ok (1, 15, 5) ∧
    locate twoRecords 20 = .ok (1, 15, 5) ∧ locate twoRecords 21 = .err .outOfCoverage := by
  decide +kernel

example : Nominal twoRecords.init twoRecords.intlen twoRecords.rsize twoRecords.records
    twoRecords.nRecords := by
  intro k hk
  simp only [twoRecords] at hk
  interval_cases k <;> norm_num [twoRecords]

/-! ### C63: the stack of segments -/

/-- `select_et` returns the last segment in load order that can serve the epoch. It fails exactly if
none can, and never panics. -/
theorem stack_selects_last {segs : List (Stacked K)} (hv : ∀ s ∈ segs, s.desc.Valid) (et : K) :
    (∃ pre s post, segs = pre ++ s :: post ∧ Usable et s ∧ (∀ t ∈ post, ¬ Usable et t) ∧
      selectEt segs et = .ok s.desc) ∨
    ((∀ t ∈ segs, ¬ Usable et t) ∧
      selectEt segs et = .err (if segs = [] then .invalidSegment else .outOfCoverage)) := by
  rcases selectLoop_spec (et := et) segs.reverse false (fun s hs => hv s (List.mem_reverse.mp hs)) with
    ⟨pre, s, post, h1, h2, h3, h4⟩ | ⟨h1, h2⟩
  · left
    refine ⟨post.reverse, s, pre.reverse, ?_, h2, fun t ht => h3 t (List.mem_reverse.mp ht), h4⟩
    have := congrArg List.reverse h1
    simpa using this
  · right
    refine ⟨fun t ht => h1 t (List.mem_reverse.mpr ht), ?_⟩
    unfold selectEt
    rw [h2]
    cases segs <;> simp

/-- Two overlapping segments: the later one is used where it covers, the earlier one elsewhere. -/
def seg0 : Dyn ℚ := ⟨2, 0, 10, 1, 5, 2, [5, 5, 1, 2, 3, 15, 5, 4, 5, 6]⟩
def seg1 : Dyn ℚ := ⟨2, 5, 10, 1, 5, 1, [10, 5, 7, 8, 9]⟩

example : seg0.Valid ∧ seg1.Valid := by
  refine ⟨⟨?_, ?_, rfl, Or.inr ⟨by decide, rfl⟩⟩, ⟨?_, ?_, rfl, Or.inr ⟨by decide, rfl⟩⟩⟩ <;>
    simp [seg0, seg1]

example : ((selectEt [⟨0, 20, seg0⟩, ⟨5, 15, seg1⟩] 7).bind fun d => .ok d.init) = .ok 5 ∧
    ((selectEt [⟨0, 20, seg0⟩, ⟨5, 15, seg1⟩] 17).bind fun d => .ok d.init) = .ok 0 := by
  decide +kernel

end field

/-! ### C61: velocity is the derivative of position -/

/-- Type 2, `segment.rs`: strictly inside a record the velocity components are the time derivatives
of the position components. -/
theorem type2_velocity_is_derivative {ev evD : List ℝ → ℝ → ℝ} (hc : ChebContract ev evD)
    {c : Cheb ℝ} {et : ℝ} {k : Nat} (hl : 0 < c.intlen)
    (hlen : c.records.length = c.nRecords * c.rsize) (hr : c.rsize = 2 + 3 * c.ncoeff)
    (hk : k < c.nRecords) (h1 : c.init + k * c.intlen < et) (h2 : et < c.init + (k + 1) * c.intlen)
    (hrad : 0 < c.records.getD (k * c.rsize + 1) 0) {i : Nat} (hi : i < 3) :
    HasDerivAt (fun t => comp (evalType2 ev evD c t) i) (comp (evalType2 ev evD c et) (i + 3)) et := by
  obtain ⟨l0, e0, _⟩ := coeffs_ok hlen hr hk (i := 0) (by omega)
  obtain ⟨l1, e1, _⟩ := coeffs_ok hlen hr hk (i := 1) (by omega)
  obtain ⟨l2, e2, _⟩ := coeffs_ok hlen hr hk (i := 2) (by omega)
  have hb : (k + 1) * c.rsize ≤ c.nRecords * c.rsize := Nat.mul_le_mul_right _ hk
  rw [Nat.add_mul, Nat.one_mul, ← hlen] at hb
  set mid := c.records.getD (k * c.rsize) 0 with hmid
  set rad := c.records.getD (k * c.rsize + 1) 0 with hradd
  have hhead : recordHead c k = .ok (k, mid, rad) := by
    unfold recordHead
    dsimp only
    rw [List.getElem?_eq_getElem (by omega), List.getElem?_eq_getElem (by omega)]
    rw [List.getD_eq_getElem _ _ (by omega)] at hmid hradd
    simp only
    rw [← hmid, ← hradd, if_neg (not_le.mpr hrad)]
  have hval : ∀ t, c.init + k * c.intlen < t → t < c.init + (k + 1) * c.intlen →
      evalType2 ev evD c t = .ok [(chebPoly l0).eval ((t - mid) / rad), (chebPoly l1).eval ((t - mid) / rad),
        (chebPoly l2).eval ((t - mid) / rad), (derivative (chebPoly l0)).eval ((t - mid) / rad) / rad,
        (derivative (chebPoly l1)).eval ((t - mid) / rad) / rad,
        (derivative (chebPoly l2)).eval ((t - mid) / rad) / rad] := by
    intro t a b
    unfold evalType2
    rw [locate_inside hl hk a.le b, hhead]
    simp only [Res.bind_ok, e0, e1, e2, hc.value, hc.deriv]
  have hnear : ∀ᶠ t in nhds et, c.init + k * c.intlen < t ∧ t < c.init + (k + 1) * c.intlen :=
    (lt_mem_nhds h1).and (gt_mem_nhds h2)
  have fin : ∀ p : ℝ[X], (∀ t, c.init + k * c.intlen < t → t < c.init + (k + 1) * c.intlen →
        comp (evalType2 ev evD c t) i = p.eval ((t - mid) / rad)) →
      comp (evalType2 ev evD c et) (i + 3) = (derivative p).eval ((et - mid) / rad) / rad →
      HasDerivAt (fun t => comp (evalType2 ev evD c t) i) (comp (evalType2 ev evD c et) (i + 3)) et := by
    intro p hp hd
    rw [hd]
    exact (series_deriv p mid rad et).congr_of_eventuallyEq
      (hnear.mono (fun t ht => hp t ht.1 ht.2))
  interval_cases i
  · exact fin (chebPoly l0) (fun t a b => by rw [hval t a b]; rfl) (by rw [hval et h1 h2]; rfl)
  · exact fin (chebPoly l1) (fun t a b => by rw [hval t a b]; rfl) (by rw [hval et h1 h2]; rfl)
  · exact fin (chebPoly l2) (fun t a b => by rw [hval t a b]; rfl) (by rw [hval et h1 h2]; rfl)

/-- Type 2, `eval.rs`: the velocity in km per day is 86400 times the derivative of the position with
respect to the epoch in seconds. -/
theorem dyn_velocity_is_derivative {ev evD : List ℝ → ℝ → ℝ} (hc : ChebContract ev evD) {s : Dyn ℝ}
    (hv : s.Valid) (h3 : s.dataType ≠ 3) {et : ℝ} {k : Nat} (hk : k < s.nRecords)
    (h1 : s.init + k * s.intlen < et) (h2 : et < s.init + (k + 1) * s.intlen) {i : Nat} (hi : i < 3) :
    ∃ d, HasDerivAt (fun t => comp (tryPosition ev s t) i) d et ∧
      comp (tryVelocity ev evD s et) i = 86400 * d := by
  have hr : s.rsize = 2 + 3 * s.ncoeff := by
    rcases hv.shape with h | h
    · exact absurd h.1 h3
    · exact h.2
  obtain ⟨l0, b0, _⟩ := block_ok hv hk (i := 0) (by omega)
  obtain ⟨l1, b1, _⟩ := block_ok hv hk (i := 1) (by omega)
  obtain ⟨l2, b2, _⟩ := block_ok hv hk (i := 2) (by omega)
  set mid := s.data.getD (k * s.rsize) 0
  set rad := s.data.getD (k * s.rsize + 1) 0
  have hloc : ∀ t, s.init + k * s.intlen < t → t < s.init + (k + 1) * s.intlen →
      tryLocate s t = .ok ((s.data.drop (k * s.rsize)).take s.rsize, (t - mid) / rad, rad) := by
    intro t a b
    have hkn : ((k : ℝ) + 1) ≤ s.nRecords := by exact_mod_cast hk
    have c1 : s.init ≤ t := by
      have : 0 ≤ (k : ℝ) * s.intlen := mul_nonneg (Nat.cast_nonneg _) hv.len.le
      linarith
    have c2 : t < s.init + s.intlen * s.nRecords := by
      have : ((k : ℝ) + 1) * s.intlen ≤ s.nRecords * s.intlen :=
        mul_le_mul_of_nonneg_right hkn hv.len.le
      linarith
    obtain ⟨k', hk', q1, _, q3, q4⟩ := tryLocate_ok hv c1 c2.le
    have q3 := q3 c2
    have hkk : k' = k := by
      have hlen := hv.len
      by_contra hne
      rcases lt_or_gt_of_ne hne with hlt | hlt
      · have : ((k' : ℝ) + 1) ≤ k := by exact_mod_cast hlt
        nlinarith
      · have : ((k : ℝ) + 1) ≤ k' := by exact_mod_cast hlt
        nlinarith
    subst hkk
    exact q4
  have hpos : ∀ t, s.init + k * s.intlen < t → t < s.init + (k + 1) * s.intlen →
      tryPosition ev s t = .ok [(chebPoly l0).eval ((t - mid) / rad),
        (chebPoly l1).eval ((t - mid) / rad), (chebPoly l2).eval ((t - mid) / rad)] := by
    intro t a b
    unfold tryPosition
    rw [hloc t a b]
    simp only [Res.bind_ok, b0, b1, b2, hc.value]
  have hvel : tryVelocity ev evD s et = .ok
      [(derivative (chebPoly l0)).eval ((et - mid) / rad) * (86400 / rad),
        (derivative (chebPoly l1)).eval ((et - mid) / rad) * (86400 / rad),
        (derivative (chebPoly l2)).eval ((et - mid) / rad) * (86400 / rad)] := by
    unfold tryVelocity
    rw [hloc et h1 h2]
    simp only [Res.bind_ok, if_neg h3, b0, b1, b2, hc.deriv]
  have hnear : ∀ᶠ t in nhds et, s.init + k * s.intlen < t ∧ t < s.init + (k + 1) * s.intlen :=
    (lt_mem_nhds h1).and (gt_mem_nhds h2)
  have fin : ∀ p : ℝ[X], (∀ t, s.init + k * s.intlen < t → t < s.init + (k + 1) * s.intlen →
        comp (tryPosition ev s t) i = p.eval ((t - mid) / rad)) →
      comp (tryVelocity ev evD s et) i = (derivative p).eval ((et - mid) / rad) * (86400 / rad) →
      ∃ d, HasDerivAt (fun t => comp (tryPosition ev s t) i) d et ∧
        comp (tryVelocity ev evD s et) i = 86400 * d := by
    intro p hp hd
    refine ⟨(derivative p).eval ((et - mid) / rad) / rad,
      (series_deriv p mid rad et).congr_of_eventuallyEq (hnear.mono (fun t ht => hp t ht.1 ht.2)), ?_⟩
    rw [hd]; ring
  interval_cases i
  · exact fin (chebPoly l0) (fun t a b => by rw [hpos t a b]; rfl) (by rw [hvel]; rfl)
  · exact fin (chebPoly l1) (fun t a b => by rw [hpos t a b]; rfl) (by rw [hvel]; rfl)
  · exact fin (chebPoly l2) (fun t a b => by rw [hpos t a b]; rfl) (by rw [hvel]; rfl)

/-- A series of the contract exists: the one defined by the Chebyshev polynomials. -/
example : ChebContract (fun c t => (chebPoly c).eval t) (fun c t => (derivative (chebPoly c)).eval t) :=
  ⟨fun _ _ => rfl, fun _ _ => rfl⟩

/-- `1 + 2 T_1`: the line `1 + 2 t`. -/
example : chebPoly [1, 2] = C 1 + C 2 * X := by simp [chebPoly, chebFrom]

end Verif.Interp.Props
