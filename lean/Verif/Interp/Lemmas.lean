import Mathlib.Data.List.GetD
import Mathlib.Algebra.BigOperators.Intervals
import Verif.Interp.Poly

namespace Verif.Interp
open Polynomial Verif.Text

variable {K : Type} [Field K] [LinearOrder K] [IsStrictOrderedRing K]

/-- Successive epochs more than `eps` apart. -/
def Spaced (eps : K) (xs : List K) : Prop := xs.Pairwise (fun a b => eps < b - a)

theorem Spaced.lt {eps : K} {xs : List K} (h : Spaced eps xs) {i j : Nat} (hij : i < j)
    (hj : j < xs.length) : eps < xs.getD j 0 - xs.getD i 0 := by
  rw [List.getD_eq_getElem _ _ hj, List.getD_eq_getElem _ _ (by omega)]
  exact (List.pairwise_iff_getElem.mp h) i j (by omega) hj hij

theorem Spaced.abs {eps : K} {xs : List K} (h : Spaced eps xs) {i j : Nat} (hij : i ≠ j)
    (hi : i < xs.length) (hj : j < xs.length) : ¬ |xs.getD i 0 - xs.getD j 0| ≤ eps := by
  rcases lt_or_gt_of_ne hij with hlt | hlt
  · have := h.lt hlt hj
    rw [abs_sub_comm, not_le]
    exact lt_of_lt_of_le this (le_abs_self _)
  · have := h.lt hlt hi
    rw [not_le]
    exact lt_of_lt_of_le this (le_abs_self _)

theorem Spaced.ne {eps : K} (h0 : 0 ≤ eps) {xs : List K} (h : Spaced eps xs) {i j : Nat} (hij : i ≠ j)
    (hi : i < xs.length) (hj : j < xs.length) : xs.getD i 0 ≠ xs.getD j 0 := by
  intro he
  apply h.abs hij hi hj
  rw [he, sub_self, abs_zero]
  exact h0

/-! ### Hermite -/

theorem cell_eq {xs ys ds : List K} {p : K[X]} {n : Nat}
    (hv : ∀ i < n, p.eval (xs.getD i 0) = ys.getD i 0)
    (hd : ∀ i < n, (derivative p).eval (xs.getD i 0) = ds.getD i 0)
    (hx : ∀ i < n, ∀ j < n, i ≠ j → xs.getD i 0 ≠ xs.getD j 0) :
    ∀ j i, j ≤ i → i < 2 * n → cell xs ys ds i j = (quo p (node xs) i j).eval (node xs i)
  | 0, i, _, hi => by
    simp only [cell, quo, node]
    exact (hv (i / 2) (by omega)).symm
  | 1, i, hji, hi => by
    simp only [cell, quo, Nat.zero_add]
    by_cases hodd : i % 2 = 1
    · rw [if_pos (Or.inl hodd)]
      have : node xs (i - 1) = node xs i := by
        unfold node; rw [show (i - 1) / 2 = i / 2 by omega]
      rw [this, dq_diag]
      exact (hd (i / 2) (by omega)).symm
    · rw [if_neg (by omega)]
      have hne : node xs i - node xs (i - 1) ≠ 0 :=
        sub_ne_zero.mpr (hx _ (by omega) _ (by omega) (by omega))
      rw [div_eq_iff hne, dq_eval]
      unfold node
      rw [hv _ (by omega), hv _ (by omega)]
  | j + 2, i, hji, hi => by
    obtain ⟨k, rfl⟩ : ∃ k, i = k + 1 := ⟨i - 1, by omega⟩
    have h1 := cell_eq hv hd hx (j + 1) (k + 1) (by omega) hi
    have h2 := cell_eq hv hd hx (j + 1) k (by omega) (by omega)
    have hne : node xs (k + 1) - node xs (k + 1 - (j + 2)) ≠ 0 :=
      sub_ne_zero.mpr (hx _ (by omega) _ (by omega) (by omega))
    simp only [cell, Nat.add_sub_cancel]
    rw [h1, h2, div_eq_iff hne]
    have h3 : (quo p (node xs) k (j + 1)).eval (node xs k) =
        (quo p (node xs) (k + 1) (j + 1)).eval (node xs (k + 1 - (j + 2))) := by
      rw [quo_upper]
      show (dq (quo p (node xs) k j) (node xs (k - (j + 1)))).eval (node xs k) = _
      rw [dq_symm, show k + 1 - (j + 2) = k - (j + 1) by omega]
    rw [h3]
    exact (dq_eval _ _ _).symm

theorem horner_eq {xs : List K} {p : K[X]} {coef : Nat → K} {x : K} :
    ∀ k, (∀ i < k, coef i = (quo p (node xs) i i).eval (node xs i)) →
      hermiteHorner xs coef x k ((quo p (node xs) k k).eval x)
        ((derivative (quo p (node xs) k k)).eval x) = (p.eval x, (derivative p).eval x)
  | 0, _ => by simp [hermiteHorner, quo]
  | k + 1, h => by
    unfold hermiteHorner
    have hs := dq_spec (quo p (node xs) k k) (node xs k)
    rw [← quo_upper, ← h k (by omega)] at hs
    have e1 : (quo p (node xs) (k + 1) (k + 1)).eval x * (x - node xs k) + coef k =
        (quo p (node xs) k k).eval x := by
      have := congrArg (eval x) hs
      simp only [eval_add, eval_mul, eval_sub, eval_X, eval_C] at this
      linear_combination -this
    have e2 : (derivative (quo p (node xs) (k + 1) (k + 1))).eval x * (x - node xs k) +
        (quo p (node xs) (k + 1) (k + 1)).eval x = (derivative (quo p (node xs) k k)).eval x := by
      have := congrArg (fun q => (derivative q).eval x) hs
      simp only [derivative_add, derivative_mul, derivative_sub, derivative_X, derivative_C, eval_add,
        eval_mul, eval_sub, eval_X, eval_C, eval_one, eval_zero] at this
      linear_combination -this
    rw [e1, e2]
    exact horner_eq k (fun i hi => h i (by omega))

theorem hermiteClash_false {eps : K} {xs : List K} (h : Spaced eps xs) : hermiteClash eps xs = false := by
  unfold hermiteClash
  rw [Bool.or_eq_false_iff]
  constructor
  · rw [List.any_eq_false]
    intro i hi
    rw [List.mem_range] at hi
    by_cases h0 : i = 0
    · simp [h0]
    · simp only [ne_eq, h0, not_false_eq_true, decide_true, Bool.true_and, decide_eq_true_eq]
      unfold node
      exact h.abs (by omega) (by omega) (by omega)
  · rw [List.any_eq_false]
    intro i hi
    rw [List.mem_range] at hi
    rw [Bool.not_eq_true, List.any_eq_false]
    intro j hj
    rw [List.mem_range] at hj
    by_cases h2 : 2 ≤ j
    · simp only [h2, decide_true, Bool.true_and, decide_eq_true_eq]
      unfold node
      exact h.abs (by omega) (by omega) (by omega)
    · simp [h2]

theorem hermite_poly {eps : K} (h0 : 0 ≤ eps) {xs ys ds : List K} (hy : ys.length = xs.length)
    (hdl : ds.length = xs.length) (hne : xs ≠ []) (hsp : Spaced eps xs) {p : K[X]}
    (hdeg : p.degree < (2 * xs.length : Nat))
    (hv : ∀ i < xs.length, p.eval (xs.getD i 0) = ys.getD i 0)
    (hd : ∀ i < xs.length, (derivative p).eval (xs.getD i 0) = ds.getD i 0) (x : K) :
    hermite eps xs ys ds x = .ok (p.eval x, (derivative p).eval x) := by
  have hlen : 0 < xs.length := List.length_pos_iff.mpr hne
  unfold hermite
  rw [if_neg (by simp [hy, hdl, hne]), hermiteClash_false hsp]
  simp only [Bool.false_eq_true, if_false]
  have hx : ∀ i < xs.length, ∀ j < xs.length, i ≠ j → xs.getD i 0 ≠ xs.getD j 0 :=
    fun i hi j hj hij => hsp.ne h0 hij hi hj
  have hcell := fun i (hi : i < 2 * xs.length) => cell_eq hv hd hx i i le_rfl hi
  -- the last quotient is constant
  set m := 2 * xs.length - 1 with hm
  have hconst : (quo p (node xs) m m).degree < 1 := by
    refine quo_degree (n := 1) ?_
    rwa [show 1 + m = 2 * xs.length by omega]
  have hC : quo p (node xs) m m = C ((quo p (node xs) m m).coeff 0) :=
    eq_C_of_degree_le_zero (Nat.WithBot.lt_one_iff_le_zero.mp hconst)
  have e1 : cell xs ys ds m m = (quo p (node xs) m m).eval x := by
    rw [hcell m (by omega), hC]; simp
  have e2 : (0 : K) = (derivative (quo p (node xs) m m)).eval x := by
    rw [hC]; simp
  rw [e1]
  conv_lhs => rw [e2]
  rw [horner_eq m (fun i hi => hcell i (by omega))]

/-! ### Lagrange -/

theorem foldl_none {α : Type} (f : Option K → α → Option K) (hf : ∀ a, f none a = none) (l : List α) :
    l.foldl f none = none := by
  induction l with
  | nil => rfl
  | cons a l ih => rw [List.foldl_cons, hf, ih]

theorem basis_eq {eps : K} {xs : List K} (hsp : Spaced eps xs) (x : K) {i : Nat} (hi : i < xs.length) :
    basis eps xs x i = some (∏ j ∈ (Finset.range xs.length).erase i,
      ((x - xs.getD j 0) / (xs.getD i 0 - xs.getD j 0))) := by
  unfold basis
  have key : ∀ n ≤ xs.length, (List.range n).foldl (fun b j =>
      if i = j then b
      else
        let denom := xs.getD i 0 - xs.getD j 0
        if |denom| ≤ eps then none else b.map (· * ((x - xs.getD j 0) / denom))) (some 1) =
      some (∏ j ∈ (Finset.range n).erase i, ((x - xs.getD j 0) / (xs.getD i 0 - xs.getD j 0))) := by
    intro n hn
    induction n with
    | zero => simp
    | succ n ih =>
      rw [List.range_succ, List.foldl_append, ih (by omega)]
      simp only [List.foldl_cons, List.foldl_nil]
      by_cases h : i = n
      · subst h
        rw [if_pos rfl, Finset.range_add_one, Finset.erase_insert (by simp)]
        congr 1
        refine Finset.prod_congr ?_ (fun _ _ => rfl)
        rw [Finset.erase_eq_of_notMem (by simp)]
      · rw [if_neg h, if_neg (hsp.abs h hi (by omega))]
        simp only [Option.map_some]
        rw [Finset.range_add_one, Finset.erase_insert_of_ne (Ne.symm h), Finset.prod_insert (by simp), mul_comm]
  exact key xs.length le_rfl

theorem lagrange_eq {eps : K} {xs ys : List K} (hl : ys.length = xs.length) (hne : xs ≠ [])
    (hsp : Spaced eps xs) (x : K) :
    lagrangeValue eps xs ys x =
      .ok ((Lagrange.interpolate (Finset.range xs.length) (fun i => xs.getD i 0)
        (fun i => ys.getD i 0)).eval x) := by
  unfold lagrangeValue
  rw [if_neg (by simp [hl, hne])]
  have key : ∀ n ≤ xs.length, (List.range n).foldl (fun v i =>
      addTerm v (basis eps xs x i) (ys.getD i 0)) (some 0) =
      some (∑ i ∈ Finset.range n, ys.getD i 0 * ∏ j ∈ (Finset.range xs.length).erase i,
        ((x - xs.getD j 0) / (xs.getD i 0 - xs.getD j 0))) := by
    intro n hn
    induction n with
    | zero => simp
    | succ n ih =>
      rw [List.range_succ, List.foldl_append, ih (by omega)]
      simp only [List.foldl_cons, List.foldl_nil, basis_eq hsp x (show n < xs.length by omega), addTerm]
      rw [Finset.sum_range_succ]
  rw [key xs.length le_rfl]
  simp only
  congr 1
  rw [Lagrange.interpolate_apply, eval_finset_sum]
  refine Finset.sum_congr rfl (fun i _ => ?_)
  rw [eval_mul, eval_C, Lagrange.basis, eval_prod]
  congr 1
  refine Finset.prod_congr rfl (fun j _ => ?_)
  rw [Lagrange.basisDivisor, eval_mul, eval_C, eval_sub, eval_X, eval_C, div_eq_inv_mul]

theorem spaced_injOn {eps : K} (h0 : 0 ≤ eps) {xs : List K} (hsp : Spaced eps xs) :
    Set.InjOn (fun i => xs.getD i 0) (Finset.range xs.length) := by
  intro i hi j hj h
  simp only [Finset.coe_range, Set.mem_Iio] at hi hj
  by_contra hij
  exact hsp.ne h0 hij hi hj h

theorem lagrange_poly {eps : K} (h0 : 0 ≤ eps) {xs ys : List K} (hl : ys.length = xs.length)
    (hne : xs ≠ []) (hsp : Spaced eps xs) {p : K[X]} (hdeg : p.degree < xs.length)
    (hv : ∀ i < xs.length, p.eval (xs.getD i 0) = ys.getD i 0) (x : K) :
    lagrangeValue eps xs ys x = .ok (p.eval x) := by
  rw [lagrange_eq hl hne hsp]
  congr 2
  exact (Lagrange.eq_interpolate_of_eval_eq _ (spaced_injOn h0 hsp) (by simpa using hdeg)
    (fun i hi => hv i (by simpa using hi))).symm

theorem lagrange_node {eps : K} (h0 : 0 ≤ eps) {xs ys : List K} (hl : ys.length = xs.length)
    (hne : xs ≠ []) (hsp : Spaced eps xs) {i : Nat} (hi : i < xs.length) :
    lagrangeValue eps xs ys (xs.getD i 0) = .ok (ys.getD i 0) := by
  rw [lagrange_eq hl hne hsp]
  congr 1
  exact Lagrange.eval_interpolate_at_node (v := fun i => xs.getD i 0) _ (spaced_injOn h0 hsp)
    (by simpa using hi)

/-! ### Window -/

theorem countP_sorted {l : List K} (hs : l.Pairwise (· < ·)) {x : K} (hx : x ∉ l) :
    (∀ i (h : i < l.length), i < l.countP (· < x) → l[i] < x) ∧
      (∀ i (h : i < l.length), l.countP (· < x) ≤ i → x < l[i]) := by
  induction l with
  | nil => simp
  | cons a l ih =>
    rw [List.pairwise_cons] at hs
    simp only [List.mem_cons, not_or] at hx
    obtain ⟨i1, i2⟩ := ih hs.2 hx.2
    rw [List.countP_cons]
    by_cases ha : a < x
    · simp only [ha, decide_true, if_true]
      constructor
      · intro i h hi
        cases i with
        | zero => simpa using ha
        | succ i => simpa using i1 i (by simpa using h) (by omega)
      · intro i h hi
        cases i with
        | zero => omega
        | succ i => simpa using i2 i (by simpa using h) (by omega)
    · simp only [ha, decide_false, Bool.false_eq_true, if_false, Nat.add_zero]
      have hxa : x < a := lt_of_le_of_ne (not_lt.mp ha) hx.1
      have h0 : l.countP (· < x) = 0 := by
        rw [List.countP_eq_zero]
        intro b hb
        have := hs.1 b hb
        simp only [decide_eq_true_eq, not_lt]
        exact (hxa.trans this).le
      rw [h0]
      constructor
      · intro i h hi; omega
      · intro i h _
        cases i with
        | zero => simpa using hxa
        | succ i =>
          have h' : i < l.length := by simpa using h
          have := hs.1 l[i] (List.getElem_mem h')
          simpa using hxa.trans this

theorem window_spec {d : Discrete K} {et : K} {count : Nat} (hs : d.epochs.Pairwise (· < ·))
    (hn : d.epochs.length = d.nRecords) {w : Window} (h : locateOrWindow d et count = .ok w) :
    (∀ i, w = .exact i → ∃ h : i < d.epochs.length, d.epochs[i] = et) ∧
    (∀ first c, w = .window first c → c = count ∧ 1 ≤ c ∧ first + c ≤ d.nRecords ∧ et ∉ d.epochs ∧
      (2 ≤ c → ∃ k, first ≤ k ∧ k + 1 < first + c ∧ d.epochs.getD k 0 < et ∧
        et < d.epochs.getD (k + 1) 0)) := by
  unfold locateOrWindow at h
  split at h
  · rename_i start stop hstart hstop
    split at h
    · simp at h
    · rename_i hcov
      push Not at hcov
      unfold binarySearch at h
      by_cases hm : et ∈ d.epochs
      · rw [if_pos hm] at h
        simp only [Res.ok.injEq] at h
        subst h
        refine ⟨?_, by simp⟩
        intro i hi
        injection hi with hi
        subst hi
        have hlt := List.idxOf_lt_length_iff.mpr hm
        exact ⟨hlt, List.getElem_idxOf hlt⟩
      · rw [if_neg hm] at h
        simp only at h
        split at h
        · simp at h
        · rename_i hc
          push Not at hc
          simp only [Res.ok.injEq] at h
          subst h
          refine ⟨by simp, ?_⟩
          intro first c hw
          injection hw with h1 h2
          subst h2
          obtain ⟨lo, hi⟩ := countP_sorted hs hm
          set ins := d.epochs.countP (· < et) with hins
          have hlen : 0 < d.epochs.length := by omega
          have hins1 : 1 ≤ ins := by
            by_contra hlt
            have h3 := hi 0 hlen (by omega)
            have : d.epochs[0] = start := by
              rw [List.head?_eq_getElem?, List.getElem?_eq_getElem hlen] at hstart
              exact Option.some.inj hstart
            rw [this] at h3
            exact absurd hcov.2.1 (not_le.mpr h3)
          have hinsn : ins < d.epochs.length := by
            by_contra hge
            have h3 := lo (d.epochs.length - 1) (by omega) (by omega)
            have : d.epochs[d.epochs.length - 1] = stop := by
              rw [List.getLast?_eq_getElem?, List.getElem?_eq_getElem (by omega)] at hstop
              exact Option.some.inj hstop
            rw [this] at h3
            exact absurd hcov.2.2 (not_le.mpr h3)
          refine ⟨rfl, by omega, ?_, hm, ?_⟩
          · rw [← h1]; split <;> omega
          · intro h2
            refine ⟨ins - 1, ?_, ?_, ?_, ?_⟩
            · rw [← h1]; split <;> omega
            · rw [← h1]; split <;> omega
            · rw [List.getD_eq_getElem _ _ (by omega)]
              exact lo (ins - 1) (by omega) (by omega)
            · rw [show ins - 1 + 1 = ins by omega, List.getD_eq_getElem _ _ hinsn]
              exact hi ins hinsn le_rfl
  · simp at h

/-- In coverage a window or exact hit is always found. -/
theorem window_total {d : Discrete K} {et : K} {count : Nat} (hn : d.epochs.length = d.nRecords)
    (hc : 1 ≤ count) (hcn : count ≤ d.nRecords) (hlo : d.epochs.getD 0 0 ≤ et)
    (hhi : et ≤ d.epochs.getD (d.nRecords - 1) 0) : ∃ w, locateOrWindow d et count = .ok w := by
  have hlen : 0 < d.epochs.length := by omega
  have h1 : d.epochs.head? = some (d.epochs.getD 0 0) := by
    rw [List.head?_eq_getElem?, List.getElem?_eq_getElem hlen, List.getD_eq_getElem _ _ hlen]
  have h2 : d.epochs.getLast? = some (d.epochs.getD (d.nRecords - 1) 0) := by
    rw [List.getLast?_eq_getElem?, List.getElem?_eq_getElem (by omega),
      List.getD_eq_getElem _ _ (by omega)]
    simp only [hn]
  unfold locateOrWindow
  rw [h1, h2]
  simp only
  rw [if_neg (by push Not; exact ⟨by omega, hlo, hhi⟩)]
  unfold binarySearch
  by_cases hm : et ∈ d.epochs
  · rw [if_pos hm]; exact ⟨_, rfl⟩
  · rw [if_neg hm]
    simp only
    rw [if_neg (by omega)]
    exact ⟨_, rfl⟩

/-! ### Columns -/

theorem mapM_some {α β : Type} {f : α → Option β} {g : α → β} :
    ∀ {l : List α}, (∀ a ∈ l, f a = some (g a)) → l.mapM f = some (l.map g)
  | [], _ => rfl
  | a :: l, h => by
    rw [List.mapM_cons, h a (by simp), mapM_some (fun b hb => h b (by simp [hb]))]
    rfl

theorem column_eq {d : Discrete K} {first count comp : Nat} (hlen : d.states.length = d.nRecords * 6)
    (h : first + count ≤ d.nRecords) (hc : comp < 6) :
    column d first count comp =
      .ok ((List.range count).map (fun k => d.states.getD ((first + k) * 6 + comp) 0)) := by
  unfold column
  rw [mapM_some (g := fun k => d.states.getD ((first + k) * 6 + comp) 0)]
  · rfl
  · intro k hk
    rw [List.mem_range] at hk
    have hb : (first + k) * 6 + comp < d.states.length := by rw [hlen]; omega
    rw [List.getElem?_eq_getElem hb, List.getD_eq_getElem _ _ hb]

theorem getD_range_map {α : Type} (f : Nat → α) (dflt : α) {n k : Nat} (h : k < n) :
    ((List.range n).map f).getD k dflt = f k := by
  rw [List.getD_eq_getElem _ _ (by simpa using h)]
  simp

theorem sliceL_eq {v : List K} {a b : Nat} (h1 : a ≤ b) (h2 : b ≤ v.length) :
    sliceL v a b = some ((v.drop a).take (b - a)) := by
  unfold sliceL; rw [if_pos ⟨h1, h2⟩]

theorem slice_getD {v : List K} {a n k : Nat} (hk : k < n) :
    ((v.drop a).take n).getD k 0 = v.getD (a + k) 0 := by
  simp only [List.getD_eq_getElem?_getD, List.getElem?_take_of_lt hk, List.getElem?_drop]

theorem slice_length {v : List K} {a n : Nat} (h : a + n ≤ v.length) :
    ((v.drop a).take n).length = n := by simp; omega

theorem spaced_slice {eps : K} {xs : List K} (h : Spaced eps xs) (a n : Nat) :
    Spaced eps ((xs.drop a).take n) :=
  h.sublist ((List.take_sublist _ _).trans (List.drop_sublist _ _))

theorem spaced_sorted {eps : K} (h0 : 0 ≤ eps) {xs : List K} (h : Spaced eps xs) :
    xs.Pairwise (· < ·) :=
  h.imp (fun {a b} hab => by linarith)

end Verif.Interp
