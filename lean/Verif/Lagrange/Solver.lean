import Verif.Lagrange.Model

/-
Claim C145: the linear solver and Newton's method.
-/
namespace Verif.Lagrange.Props
open Verif.Lagrange Classical

/-- A matrix times a vector. -/
def mul (a : M) (x : V) : V := fun i => a i 0 * x 0 + a i 1 * x 1 + a i 2 * x 2

/-! ### Linear systems -/

/-- The columns before `col` are those of the identity. -/
def Done (col : Nat) (a : M) : Prop := ∀ j : Fin 3, (j : Nat) < col → ∀ i, a i j = if i = j then 1 else 0

theorem pivot_ge (a : M) (col : Fin 3) : col ≤ pivotOf a col := by
  have : ∀ (l : List (Fin 3)) (p : Fin 3), (∀ r ∈ l, col < r) → col ≤ p →
      col ≤ l.foldl (fun p r => if |a p col| < |a r col| then r else p) p := by
    intro l
    induction l with
    | nil => intro p _ h; exact h
    | cons r l ih =>
      intro p hl hp
      rw [List.foldl_cons]
      apply ih _ (fun x hx => hl x (by simp [hx]))
      split
      · exact le_of_lt (hl r (by simp))
      · exact hp
  unfold pivotOf
  apply this _ _ _ le_rfl
  intro r hr
  simpa using (List.mem_filter.mp hr).2

theorem swap_lt {p col i : Fin 3} (hp : col ≤ p) (hi : i < col) : Equiv.swap p col i = i :=
  Equiv.swap_apply_of_ne_of_ne (fun e => absurd (e ▸ hi) (not_lt.mpr hp)) (ne_of_lt hi)

theorem mul_congr {a b : M} (h : ∀ i j, a i j = b i j) : a = b := by funext i j; exact h i j

/-- One column: the solutions stay the same and the column becomes that of the identity. -/
theorem elim_spec {col : Fin 3} {s s' : M × V} (hd : Done col s.1) (h : elim col s = some s') :
    Done (col + 1) s'.1 ∧ ∀ x, mul s.1 x = s.2 ↔ mul s'.1 x = s'.2 := by
  obtain ⟨a, b⟩ := s
  unfold elim at h
  dsimp only at h hd
  have hp := pivot_ge a col
  generalize pivotOf a col = p at h hp
  split_ifs at h with hbig
  have hpiv : a p col ≠ 0 := by
    intro h0
    rw [h0, abs_zero] at hbig
    exact hbig (by positivity)
  -- the swapped system
  set a1 : M := fun i j => a (Equiv.swap p col i) j with ha1
  set b1 : V := fun i => b (Equiv.swap p col i) with hb1
  have hdiv : a1 col col = a p col := by rw [ha1]; simp
  have hd1 : Done col a1 := by
    intro j hj i
    rw [ha1]
    dsimp only
    rw [hd j hj]
    have hj' : j < col := hj
    by_cases hi : i = j
    · subst hi; rw [swap_lt hp hj']
    · rw [if_neg hi, if_neg]
      intro e
      apply hi
      have := congrArg (Equiv.swap p col) e
      rw [Equiv.swap_apply_self, swap_lt hp hj'] at this
      exact this
  have e1 : ∀ x, mul a x = b ↔ mul a1 x = b1 := by
    intro x
    constructor
    · intro hx
      funext i
      have := congrFun hx (Equiv.swap p col i)
      exact this
    · intro hx
      funext i
      have := congrFun hx (Equiv.swap p col i)
      simp only [ha1, hb1, mul, Equiv.swap_apply_self] at this
      exact this
  -- the rows before the column have zeros in the pivot row
  have hz : ∀ j : Fin 3, j < col → a1 col j = 0 := by
    intro j hj
    rw [hd1 j hj, if_neg (ne_of_gt hj)]
  have h' : s' = reduce col a1 b1 := (Option.some.inj h).symm
  clear h
  clear_value a1 b1
  have hne : a1 col col ≠ 0 := by rw [hdiv]; exact hpiv
  have hr1 : ∀ j, (if col ≤ j then a1 col j / a1 col col else a1 col j) = a1 col j / a1 col col := by
    intro j
    split
    · rfl
    · rename_i hj; rw [hz j (not_le.mp hj)]; simp
  have hs' : s' = (fun i j => if i = col then a1 col j / a1 col col else a1 i j - a1 i col * (a1 col j / a1 col col),
      fun i => if i = col then b1 col / a1 col col else b1 i - a1 i col * (b1 col / a1 col col)) := by
    rw [h']
    unfold reduce
    apply Prod.ext
    · funext i j
      dsimp only
      by_cases hi : i = col
      · subst hi
        have : ¬ (i ≠ i ∧ i ≤ j) := by simp
        rw [if_neg this, if_pos rfl]
        by_cases hj : i ≤ j
        · rw [if_pos ⟨rfl, hj⟩]
        · rw [if_neg (fun e => hj e.2), hz j (not_le.mp hj)]; simp
      · rw [if_neg hi]
        have n1 : ∀ k, ¬ (i = col ∧ col ≤ k) := fun k e => hi e.1
        by_cases hj : col ≤ j
        · rw [if_pos ⟨hi, hj⟩, if_neg (n1 j), if_neg (n1 col), if_pos ⟨rfl, hj⟩]
        · rw [if_neg (fun e => hj e.2), if_neg (n1 j), hz j (not_le.mp hj)]; simp
    · funext i
      dsimp only
      by_cases hi : i = col
      · subst hi; simp
      · rw [if_pos hi, if_neg hi, if_pos rfl, if_neg hi, if_neg (fun e => hi e.1)]
  subst hs'
  refine ⟨?_, ?_⟩
  · intro j hj i
    dsimp only
    by_cases hjc : j = col
    · subst hjc
      by_cases hi : i = j
      · rw [if_pos hi, if_pos hi, div_self hne]
      · rw [if_neg hi, if_neg hi, div_self hne]; ring
    · have hlt : j < col := by
        rw [Fin.lt_def]
        have : (j : Nat) ≠ col := fun e => hjc (Fin.ext e)
        omega
      rw [hz j hlt]
      by_cases hi : i = col
      · subst hi; rw [if_pos rfl, if_neg (ne_of_gt hlt)]; simp
      · rw [if_neg hi, zero_div, mul_zero, sub_zero]; exact hd1 j hlt i
  · intro x
    dsimp only
    rw [e1]
    have hrow : ∀ i, mul (fun i j => if i = col then a1 col j / a1 col col else a1 i j - a1 i col * (a1 col j / a1 col col)) x i =
        if i = col then mul a1 x col / a1 col col else mul a1 x i - a1 i col * (mul a1 x col / a1 col col) := by
      intro i
      unfold mul
      by_cases hi : i = col
      · simp only [if_pos hi]; ring
      · simp only [if_neg hi]; ring
    constructor
    · intro hx
      funext i
      rw [hrow, hx]
    · intro hx
      have hc : mul a1 x col = b1 col := by
        have := congrFun hx col
        rw [hrow] at this
        rw [if_pos rfl, if_pos rfl] at this
        exact (div_left_inj' hne).mp this
      funext i
      by_cases hi : i = col
      · rw [hi, hc]
      · have := congrFun hx i
        rw [hrow] at this
        rw [if_neg hi, if_neg hi, hc] at this
        linarith

/-- C145. What the linear solver returns is the only solution of the system. -/
theorem linear_unique {a : M} {b x : V} (h : solveLinear a b = some x) : ∀ y, mul a y = b ↔ y = x := by
  unfold solveLinear at h
  rw [Option.map_eq_some_iff] at h
  obtain ⟨s3, h3, rfl⟩ := h
  rw [Option.bind_eq_some_iff] at h3
  obtain ⟨s2, h2, h3⟩ := h3
  rw [Option.bind_eq_some_iff] at h2
  obtain ⟨s1, h1, h2⟩ := h2
  obtain ⟨d1, e1⟩ := elim_spec (col := 0) (s := (a, b)) (fun j hj => absurd hj (by simp)) h1
  obtain ⟨d2, e2⟩ := elim_spec (col := 1) (s := s1) d1 h2
  obtain ⟨d3, e3⟩ := elim_spec (col := 2) (s := s2) d2 h3
  intro y
  have hid : mul s3.1 y = y := by
    funext i
    unfold mul
    rw [d3 0 (by decide), d3 1 (by decide), d3 2 (by decide)]
    fin_cases i <;> simp
  rw [show mul a y = b ↔ mul (a, b).1 y = (a, b).2 from Iff.rfl, e1, e2, e3, hid]

/-- C145. A singular matrix is refused. -/
theorem linear_singular {a : M} {v : V} (hv : v ≠ 0) (h0 : mul a v = 0) (b : V) : solveLinear a b = none := by
  cases h : solveLinear a b with
  | none => rfl
  | some x =>
    have hx := (linear_unique h x).mpr rfl
    have : mul a (x + v) = b := by
      rw [← hx]
      funext i
      have := congrFun h0 i
      simp only [mul, Pi.add_apply, Pi.zero_apply] at this ⊢
      linarith
    have := (linear_unique h (x + v)).mp this
    exact absurd (by simpa using this) hv

/-! ### Newton's method -/

theorem len_nonneg (a : V) : 0 ≤ len a := Real.sqrt_nonneg _

theorem dot_nonneg (a : V) : 0 ≤ dot a a := by unfold dot; nlinarith [mul_self_nonneg (a 0), mul_self_nonneg (a 1), mul_self_nonneg (a 2)]

theorem len_sq (a : V) : len a ^ 2 = dot a a := Real.sq_sqrt (dot_nonneg a)

theorem len_smul (c : ℝ) (a : V) : len (c • a) = |c| * len a := by
  have : dot (c • a) (c • a) = c ^ 2 * dot a a := by unfold dot; simp only [Pi.smul_apply, smul_eq_mul]; ring
  unfold len
  rw [this, Real.sqrt_mul (sq_nonneg c), Real.sqrt_sq_eq_abs]

theorem len_zero : len 0 = 0 := by unfold len dot; simp

theorem eq_zero_of_len {a : V} (h : len a = 0) : a = 0 := by
  have h1 := len_sq a
  rw [h] at h1
  unfold dot at h1
  have := mul_self_nonneg (a 0)
  have := mul_self_nonneg (a 1)
  have := mul_self_nonneg (a 2)
  funext i
  fin_cases i
  · exact mul_self_eq_zero.mp (by show a 0 * a 0 = 0; linarith)
  · exact mul_self_eq_zero.mp (by show a 1 * a 1 = 0; linarith)
  · exact mul_self_eq_zero.mp (by show a 2 * a 2 = 0; linarith)

theorem cauchy (a b : V) : dot a b ≤ len a * len b := by
  have h : dot a b ^ 2 ≤ dot a a * dot b b := by
    unfold dot
    nlinarith [sq_nonneg (a 0 * b 1 - a 1 * b 0), sq_nonneg (a 0 * b 2 - a 2 * b 0), sq_nonneg (a 1 * b 2 - a 2 * b 1)]
  apply le_of_sq_le_sq' _ (mul_nonneg (len_nonneg a) (len_nonneg b))
  rw [mul_pow, len_sq, len_sq]
  exact h
where
  le_of_sq_le_sq' {x y : ℝ} (h : x ^ 2 ≤ y ^ 2) (hy : 0 ≤ y) : x ≤ y := by
    by_contra hn
    push Not at hn
    nlinarith

theorem len_add (a b : V) : len (a + b) ≤ len a + len b := by
  have h1 : dot (a + b) (a + b) = len a ^ 2 + 2 * dot a b + len b ^ 2 := by
    rw [len_sq, len_sq]; unfold dot; simp only [Pi.add_apply]; ring
  unfold len at *
  rw [Real.sqrt_le_left (add_nonneg (Real.sqrt_nonneg _) (Real.sqrt_nonneg _)), h1]
  have := cauchy a b
  unfold len at this
  nlinarith

/-- The step of the line search: the first of twelve halvings that does not raise the residual, or, if there is none, the whole step. -/
theorem lineSearch_cases (res : V → V) (pos delta : V) (norm : ℝ) (n : Nat) : ∀ k : Nat, n + k = 12 →
    (∃ m < 12, k ≤ m ∧ lineSearch res pos delta norm n ((1 / 2) ^ k) = (1 / 2 : ℝ) ^ m • delta ∧ len (res (pos + (1 / 2 : ℝ) ^ m • delta)) ≤ norm ∧
      ∀ j, k ≤ j → j < m → norm < len (res (pos + (1 / 2 : ℝ) ^ j • delta))) ∨
    (lineSearch res pos delta norm n ((1 / 2) ^ k) = delta ∧ ∀ j, k ≤ j → j < 12 → norm < len (res (pos + (1 / 2 : ℝ) ^ j • delta))) := by
  induction n with
  | zero => intro k hk; right; exact ⟨rfl, fun j h1 h2 => by omega⟩
  | succ n ih =>
    intro k hk
    rw [lineSearch]
    have hbig : ¬ ((1 / 2 : ℝ) ^ k ≤ 1 / 4096) := by
      have : (1 / 2 : ℝ) ^ 11 ≤ (1 / 2) ^ k := pow_le_pow_of_le_one (by norm_num) (by norm_num) (by omega)
      intro h
      have : (1 / 2 : ℝ) ^ 11 ≤ 1 / 4096 := this.trans h
      norm_num at this
    by_cases hd : len (res (pos + (1 / 2 : ℝ) ^ k • delta)) ≤ norm
    · left
      exact ⟨k, by omega, le_rfl, by rw [if_pos (Or.inl hd)], hd, fun j h1 h2 => by omega⟩
    · rw [if_neg (by rintro (h | h); exacts [hd h, hbig h]), show (1 / 2 : ℝ) ^ k * (1 / 2) = (1 / 2) ^ (k + 1) from (pow_succ _ _).symm]
      rcases ih (k + 1) (by omega) with ⟨m, hm, hkm, e, hr, hj⟩ | ⟨e, hj⟩
      · left
        refine ⟨m, hm, by omega, e, hr, ?_⟩
        intro j h1 h2
        by_cases hjk : j = k
        · rw [hjk]; exact not_le.mp hd
        · exact hj j (by omega) h2
      · right
        refine ⟨e, ?_⟩
        intro j h1 h2
        by_cases hjk : j = k
        · rw [hjk]; exact not_le.mp hd
        · exact hj j (by omega) h2

/-- C145. The line search takes the largest of the steps 1, 1/2, …, 1/2048 that does not raise the residual. -/
theorem line_search_descends (res : V → V) (pos delta : V) (norm : ℝ) (h : ∃ m < 12, len (res (pos + (1 / 2 : ℝ) ^ m • delta)) ≤ norm) :
    ∃ m < 12, lineSearch res pos delta norm 12 1 = (1 / 2 : ℝ) ^ m • delta ∧ len (res (pos + (1 / 2 : ℝ) ^ m • delta)) ≤ norm ∧
      ∀ j < m, norm < len (res (pos + (1 / 2 : ℝ) ^ j • delta)) := by
  have := lineSearch_cases res pos delta norm 12 0 rfl
  rw [pow_zero] at this
  rcases this with ⟨m, hm, _, e, hr, hj⟩ | ⟨_, hj⟩
  · exact ⟨m, hm, e, hr, fun j h' => hj j (by omega) h'⟩
  · obtain ⟨m, hm, hr⟩ := h
    exact absurd (hj m (by omega) hm) (not_lt.mpr hr)

/-- C145, finding. If none of them lowers the residual, the whole step is taken, not the smallest: the bound `alpha <= 1/4096` is never met. -/
theorem no_descent_full_step (res : V → V) (pos delta : V) (norm : ℝ) (h : ∀ m < 12, norm < len (res (pos + (1 / 2 : ℝ) ^ m • delta))) :
    lineSearch res pos delta norm 12 1 = delta := by
  have := lineSearch_cases res pos delta norm 12 0 rfl
  rw [pow_zero] at this
  rcases this with ⟨m, hm, _, _, hr, _⟩ | ⟨e, _⟩
  · exact absurd hr (not_le.mpr (h m hm))
  · exact e

theorem lineSearch_len (res : V → V) (pos delta : V) (norm : ℝ) : len (lineSearch res pos delta norm 12 1) ≤ len delta := by
  have := lineSearch_cases res pos delta norm 12 0 rfl
  rw [pow_zero] at this
  rcases this with ⟨m, _, _, e, _⟩ | ⟨e, _⟩
  · rw [e, len_smul, abs_of_nonneg (by positivity)]
    exact mul_le_of_le_one_left (len_nonneg _) (pow_le_one₀ (by norm_num) (by norm_num))
  · rw [e]

theorem limited_len {distance : ℝ} (hd : 0 ≤ distance) (delta : V) : len (limited distance delta) ≤ (1 / 20) * distance := by
  unfold limited
  split
  · rename_i h
    have hpos : 0 < len delta := lt_of_le_of_lt (by positivity) h
    rw [len_smul, abs_of_nonneg (by positivity), div_mul_cancel₀ _ (ne_of_gt hpos)]
  · rename_i h
    exact not_lt.mp h

/-- What the solver promises of its answer. -/
inductive Answer (cfg : Config) (res : V → V) : Solution → Prop
  /-- the residual at the position is within the tolerance -/
  | small {s : Solution} : s.residual = len (res s.position) → s.residual ≤ cfg.residualTolerance → Answer cfg res s
  /-- the last step is within the tolerance; the residual is that of the point before it -/
  | still {s : Solution} (q : V) (st : ℝ) : s.step = some st → st ≤ cfg.stepTolerance → len (s.position - q) = st →
      s.residual = len (res q) → Answer cfg res s
  /-- the iterations ran out: the residual at the position is at most 10⁻⁶ -/
  | fair {s : Solution} : s.residual = len (res s.position) → s.residual ≤ 1 / 10 ^ 6 → Answer cfg res s

/-- The points the search passes lie within a reach that grows with every round. -/
structure Inv (cfg : Config) (res : V → V) (distance : ℝ) (start : V) (iter : Nat) (st : St) : Prop where
  reach : len (st.pos - start) ≤ iter * ((1 / 20) * distance)
  best : ∀ p r i s, st.best = some (p, r, i, s) → r = len (res p) ∧ i ≤ iter ∧ len (p - start) ≤ iter * ((1 / 20) * distance)
  first : 0 < iter → ∃ p r i s, st.best = some (p, r, i, s) ∧ r ≤ len (res start)

theorem newton_spec {cfg : Config} {res : V → V} {distance : ℝ} (hd : 0 ≤ distance) {start : V} (n : Nat) : ∀ (iter : Nat) (st : St),
    Inv cfg res distance start iter st → (iter = 0 → st.pos = start ∧ st.best = none) →
    (∀ s, newton cfg res distance n iter st = .ok s → Answer cfg res s ∧ s.iterations ≤ iter + n ∧ len (s.position - start) ≤ (iter + n : ℕ) * ((1 / 20) * distance)) ∧
    (∀ a b c, newton cfg res distance n iter st = .error (.didNotConverge a b c) → a = cfg.maxIterations ∧ (iter + n = 0 ∨ 1 / 10 ^ 6 < len (res start))) := by
  induction n with
  | zero =>
    intro iter st h h0
    rw [newton]
    unfold finish
    cases hb : st.best with
    | none =>
      refine ⟨fun s hs => (by cases hs), ?_⟩
      intro a b c hs
      cases hs
      refine ⟨rfl, ?_⟩
      by_cases hi : iter = 0
      · left; omega
      · obtain ⟨p, r, i, s, e, _⟩ := h.first (by omega)
        rw [hb] at e; cases e
    | some t =>
      obtain ⟨p, r, i, s⟩ := t
      obtain ⟨e1, e2, e3⟩ := h.best p r i s hb
      dsimp only
      by_cases hr : r ≤ 1 / 10 ^ 6
      · rw [if_pos hr]
        refine ⟨?_, fun a b c hs => (by cases hs)⟩
        intro s' hs
        cases hs
        exact ⟨.fair e1 hr, e2, e3⟩
      · rw [if_neg hr]
        refine ⟨fun s hs => (by cases hs), ?_⟩
        intro a b c hs
        cases hs
        refine ⟨rfl, ?_⟩
        by_cases hi : iter = 0
        · rw [(h0 hi).2] at hb; cases hb
        · right
          obtain ⟨p', r', i', s', e, hle⟩ := h.first (by omega)
          rw [hb] at e
          cases e
          exact lt_of_lt_of_le (not_le.mp hr) hle
  | succ n ih =>
    intro iter st h h0
    rw [newton]
    dsimp only
    have hstep : (0 : ℝ) ≤ (1 / 20) * distance := by positivity
    by_cases hr : len (res st.pos) ≤ cfg.residualTolerance
    · rw [if_pos hr]
      refine ⟨?_, fun a b c hs => (by cases hs)⟩
      intro s hs
      cases hs
      refine ⟨.small rfl hr, Nat.le_add_right _ _, h.reach.trans ?_⟩
      push_cast
      nlinarith [Nat.cast_nonneg (α := ℝ) n]
    · rw [if_neg hr]
      cases hsol : solveLinear (jacobian res st.pos cfg.fdStep) (-res st.pos) with
      | none => exact ⟨fun s hs => (by cases hs), fun a b c hs => (by cases hs)⟩
      | some d =>
        dsimp only
        set acc := lineSearch res st.pos (limited distance d) (len (res st.pos)) 12 1 with hacc
        have hlen : len acc ≤ (1 / 20) * distance := (lineSearch_len _ _ _ _).trans (limited_len hd d)
        have hreach : len (st.pos + acc - start) ≤ (iter + 1 : ℕ) * ((1 / 20) * distance) := by
          have e : st.pos + acc - start = (st.pos - start) + acc := by abel
          rw [e]
          have := len_add (st.pos - start) acc
          have := h.reach
          push_cast
          linarith
        by_cases hst : len acc ≤ cfg.stepTolerance
        · rw [if_pos hst]
          refine ⟨?_, fun a b c hs => (by cases hs)⟩
          intro s hs
          cases hs
          refine ⟨.still st.pos (len acc) rfl hst (by rw [add_sub_cancel_left]) rfl, by dsimp only; omega, hreach.trans ?_⟩
          push_cast
          nlinarith [Nat.cast_nonneg (α := ℝ) n]
        · rw [if_neg hst]
          have hb1 : ∀ p r i s, better st (len (res st.pos)) iter = some (p, r, i, s) → r = len (res p) ∧ i ≤ iter ∧ len (p - start) ≤ iter * ((1 / 20) * distance) := by
            intro p r i s e
            unfold better at e
            cases hb : st.best with
            | none => rw [hb] at e; cases e; exact ⟨rfl, le_rfl, h.reach⟩
            | some t =>
              rw [hb] at e
              dsimp only at e
              split at e
              · cases e; exact ⟨rfl, le_rfl, h.reach⟩
              · cases e; exact h.best _ _ _ _ hb
          have hf1 : ∃ p r i s, better st (len (res st.pos)) iter = some (p, r, i, s) ∧ r ≤ len (res start) := by
            unfold better
            by_cases hi : iter = 0
            · rw [(h0 hi).2]
              exact ⟨_, _, _, _, rfl, by rw [(h0 hi).1]⟩
            · obtain ⟨p, r, i, s, e, hle⟩ := h.first (by omega)
              rw [e]
              dsimp only
              split
              · rename_i hlt; exact ⟨_, _, _, _, rfl, (le_of_lt hlt).trans hle⟩
              · exact ⟨_, _, _, _, rfl, hle⟩
          obtain ⟨i1, i2⟩ := ih (iter + 1) ⟨st.pos + acc, some (len acc), some (len (res st.pos)), better st (len (res st.pos)) iter⟩
            ⟨hreach, fun p r i s e => by
              obtain ⟨q1, q2, q3⟩ := hb1 p r i s e
              refine ⟨q1, by omega, q3.trans ?_⟩
              push_cast
              nlinarith, fun _ => hf1⟩ (fun e => by omega)
          rw [show iter + 1 + n = iter + (n + 1) by omega] at i1 i2
          exact ⟨i1, fun a b c hs => ⟨(i2 a b c hs).1, (i2 a b c hs).2⟩⟩

theorem inv_start (cfg : Config) (res : V → V) (distance : ℝ) (start : V) : Inv cfg res distance start 0 ⟨start, none, none, none⟩ :=
  ⟨by rw [sub_self, len_zero]; simp, fun p r i s e => by (dsimp only at e; cases e), fun h => absurd h (by omega)⟩

/-- C145. An answer has a residual within the tolerance, or a last step within the tolerance, or a residual of at most 10⁻⁶; it takes no
more rounds than allowed, and lies within the reach of so many steps of a twentieth of the distance. -/
theorem solver_answers {cfg : Config} {res : V → V} {distance : ℝ} (hd : 0 ≤ distance) {start : V} {s : Solution}
    (h : solveFrom cfg res distance start = .ok s) :
    Answer cfg res s ∧ s.iterations ≤ cfg.maxIterations ∧ len (s.position - start) ≤ cfg.maxIterations * ((1 / 20) * distance) := by
  have := (newton_spec hd cfg.maxIterations 0 _ (inv_start cfg res distance start) (fun _ => ⟨rfl, rfl⟩)).1 s h
  simpa using this

/-- C145. The solver gives up only if the residual at the start is above 10⁻⁶ km/s² (or no rounds are allowed). -/
theorem gives_up_only {cfg : Config} {res : V → V} {distance : ℝ} (hd : 0 ≤ distance) {start : V} {a : Nat} {b c : Option ℝ}
    (h : solveFrom cfg res distance start = .error (.didNotConverge a b c)) : a = cfg.maxIterations ∧ (cfg.maxIterations = 0 ∨ 1 / 10 ^ 6 < len (res start)) := by
  have := (newton_spec hd cfg.maxIterations 0 _ (inv_start cfg res distance start) (fun _ => ⟨rfl, rfl⟩)).2 a b c h
  simpa using this

/-- The differences of an affine residual are its matrix. -/
theorem jacobian_affine {m : M} {c : V} {res : V → V} (hres : ∀ p, res p = mul m p + c) (pos : V) {h : ℝ} (hh : h ≠ 0) : jacobian res pos h = m := by
  funext row axis
  unfold jacobian
  rw [hres, hres]
  simp only [mul, Pi.add_apply]
  fin_cases axis <;> simp <;> field_simp <;> ring

/-- C145. If the residual is affine and Newton's step is not longer than a twentieth of the distance, the first step leads to a zero of the residual. -/
theorem affine_one_step {cfg : Config} {res : V → V} {distance : ℝ} {m : M} {c : V} (hres : ∀ p, res p = mul m p + c) (hh : cfg.fdStep ≠ 0) {start d : V}
    (hsol : solveLinear m (-res start) = some d) (hlim : len d ≤ (1 / 20) * distance) (hn : 2 ≤ cfg.maxIterations) (ht : 0 ≤ cfg.residualTolerance) :
    (len (res start) ≤ cfg.residualTolerance ∧ solveFrom cfg res distance start = .ok ⟨start, 0, none, len (res start)⟩) ∨
    ∃ s, solveFrom cfg res distance start = .ok s ∧ s.position = start + d ∧ res s.position = 0 ∧ s.iterations = 1 := by
  obtain ⟨n, hn'⟩ : ∃ n, cfg.maxIterations = n + 1 + 1 := ⟨cfg.maxIterations - 2, by omega⟩
  unfold solveFrom
  rw [hn', newton]
  dsimp only
  by_cases hr : len (res start) ≤ cfg.residualTolerance
  · left; exact ⟨hr, if_pos hr⟩
  · right
    rw [if_neg hr, jacobian_affine hres start hh, hsol]
    dsimp only
    have hzero : res (start + d) = 0 := by
      have h1 := (linear_unique hsol d).mpr rfl
      rw [hres] at h1 ⊢
      funext i
      have := congrFun h1 i
      simp only [mul, Pi.add_apply, Pi.neg_apply, Pi.zero_apply] at this ⊢
      linarith
    have hlimd : limited distance d = d := by unfold limited; exact if_neg (not_lt.mpr hlim)
    have hacc : lineSearch res start d (len (res start)) 12 1 = d := by
      rw [lineSearch, if_pos, one_smul]
      left
      rw [one_smul, hzero, len_zero]
      exact len_nonneg _
    rw [hlimd, hacc]
    by_cases hst : len d ≤ cfg.stepTolerance
    · rw [if_pos hst]
      exact ⟨_, rfl, rfl, hzero, rfl⟩
    · rw [if_neg hst, newton]
      dsimp only
      rw [hzero, len_zero, if_pos ht]
      exact ⟨_, rfl, rfl, hzero, rfl⟩

end Verif.Lagrange.Props
