import Verif.Event.Model
import Verif.Event.Spec
import Mathlib.Data.List.Sort
import Mathlib.Algebra.Order.Archimedean.Basic
import Mathlib.Tactic.Linarith
import Mathlib.Tactic.Ring
import Mathlib.Tactic.FieldSimp

namespace Verif.Event
open Spec

variable {F : Type} [Field F] [LinearOrder F]

/-! ### Builders -/

/-- Labels alternate, starting with an exit when the window starts above. -/
def Alternates : Bool → List (LabeledCrossing F) → Prop
  | _, [] => True
  | s, c :: cs => c.direction = (if s then -1 else 1) ∧ Alternates (!s) cs

theorem stateAt_later (s : Bool) (times : List F) (t : F) (h : ∀ c ∈ times, t ≤ c) :
    stateAt s times t = s := by
  induction times generalizing s with
  | nil => rfl
  | cons c cs ih =>
    have hc : ¬ c < t := not_lt.mpr (h c (by simp))
    simp only [stateAt, List.foldl_cons, if_neg hc]
    exact ih s (fun c' hc' => h c' (by simp [hc']))

theorem stateAt_cons (s : Bool) (c : F) (cs : List F) (t : F) :
    stateAt s (c :: cs) t = if c < t then stateAt (!s) cs t else stateAt s cs t := by
  simp only [stateAt, List.foldl_cons]
  split <;> rfl

theorem InSome_append (p q : List (F × F)) (t : F) :
    InSome (p ++ q) t ↔ InSome p t ∨ InSome q t := by
  simp only [InSome, List.mem_append]
  constructor
  · rintro ⟨x, h | h, h2⟩
    · exact Or.inl ⟨x, h, h2⟩
    · exact Or.inr ⟨x, h, h2⟩
  · rintro (⟨x, h, h2⟩ | ⟨x, h, h2⟩)
    · exact ⟨x, Or.inl h, h2⟩
    · exact ⟨x, Or.inr h, h2⟩

theorem InSome_keep (P : Prop) [Decidable P] (a b t : F) :
    InSome (if P then [(a, b)] else []) t ↔ P ∧ a ≤ t ∧ t ≤ b := by
  by_cases h : P <;> simp [InSome, h]

/-- Times of labelled crossings. -/
def times (l : List (LabeledCrossing F)) : List F := l.map (·.t)

theorem directedPairs_mem (b t : F) (ht : t ≤ b) :
    ∀ (n : Nat) (l : List (LabeledCrossing F)), l.length ≤ n → Alternates false l →
      (times l).Pairwise (· < ·) → (∀ c ∈ times l, c ≤ b) → t ∉ times l →
      (InSome (directedPairs b l) t ↔ stateAt false (times l) t = true) := by
  intro n
  induction n with
  | zero =>
    intro l hl _ _ _ _
    have : l = [] := List.length_eq_zero_iff.mp (by omega)
    subst this
    simp [directedPairs, InSome, stateAt, times]
  | succ n ih =>
    intro l hl halt hs hb hnt
    match l, hl, halt, hs, hb, hnt with
    | [], _, _, _, _, _ => simp [directedPairs, InSome, stateAt, times]
    | [x], _, halt, _, _, hnt =>
      have hd : x.direction = 1 := halt.1
      have hne : t ≠ x.t := by simpa [times] using hnt
      rw [directedPairs, if_pos hd]
      simp only [InSome_keep]
      simp only [times, List.map_cons, List.map_nil, stateAt, List.foldl_cons, List.foldl_nil]
      by_cases h : x.t < t
      · simp [h, h.le, ht, lt_of_lt_of_le h ht]
      · simp only [h, if_false, Bool.false_eq_true, iff_false, not_and, not_le]
        intro _ h2
        exact absurd (lt_of_le_of_ne h2 (Ne.symm hne)) h
    | x :: y :: rest, hl, halt, hs, hb, hnt =>
      have hd : x.direction = 1 := halt.1
      have hd2 : y.direction = -1 := halt.2.1
      have halt3 : Alternates false rest := halt.2.2
      simp only [times, List.map_cons, List.pairwise_cons, List.mem_cons, List.mem_map, not_or,
        forall_eq_or_imp] at hs hb hnt
      rw [directedPairs, if_pos hd]
      simp only [hd2, if_true, InSome_append, InSome_keep]
      have hxy : x.t < y.t := hs.1.1
      have hrest := ih rest (by simp at hl; omega) halt3 (by simpa [times] using hs.2.2)
        (by simpa [times] using hb.2.2) (by simpa [times] using hnt.2.2)
      rw [hrest]
      simp only [times, List.map_cons, stateAt_cons]
      by_cases hyt : y.t < t
      · have hxt : x.t < t := lt_trans hxy hyt
        simp only [hyt, hxt, if_true, Bool.not_false, Bool.not_true]
        constructor
        · rintro (⟨_, _, h3⟩ | h)
          · exact absurd h3 (not_le.mpr hyt)
          · exact h
        · intro h; exact Or.inr h
      · have hty : t ≤ y.t := not_lt.mp hyt
        have hlater : ∀ c ∈ List.map (·.t) rest, t ≤ c := by
          intro c hc
          obtain ⟨z, hz, rfl⟩ := List.mem_map.mp hc
          exact le_trans hty (hs.2.1 _ ⟨z, hz, rfl⟩).le
        by_cases hxt : x.t < t
        · simp only [hyt, hxt, if_true, if_false, Bool.not_false]
          rw [stateAt_later _ _ _ hlater, stateAt_later _ _ _ hlater]
          simp [hxy, hxt.le, hty]
        · simp only [hyt, hxt, if_false]
          rw [stateAt_later _ _ _ hlater]
          simp only [Bool.false_eq_true, or_false, iff_false, not_and, not_le]
          intro _ h2
          exact absurd (lt_of_le_of_ne h2 (Ne.symm hnt.1)) hxt

theorem buildDirected_mem (a b t : F) (hta : a ≤ t) (ht : t ≤ b) (s : Bool)
    (l : List (LabeledCrossing F)) (halt : Alternates s l)
    (hs : (times l).Pairwise (· < ·)) (hb : ∀ c ∈ times l, a ≤ c ∧ c ≤ b) (hnt : t ∉ times l) :
    InSome (buildAbovePeriodsDirected l a b s) t ↔ stateAt s (times l) t = true := by
  cases l with
  | nil =>
    cases s <;> simp [buildAbovePeriodsDirected, InSome, stateAt, times, hta, ht]
  | cons x rest =>
    cases s with
    | false =>
      rw [buildAbovePeriodsDirected, if_neg (by simp)]
      exact directedPairs_mem b t ht _ _ le_rfl halt hs (fun c hc => (hb c hc).2) hnt
    | true =>
      have hd : x.direction = -1 := halt.1
      rw [buildAbovePeriodsDirected, if_pos ⟨rfl, hd⟩, InSome_append, InSome_keep]
      simp only [times, List.map_cons, List.pairwise_cons, List.mem_cons, not_or,
        forall_eq_or_imp] at hs hb hnt
      rw [directedPairs_mem b t ht _ rest le_rfl halt.2 hs.2 (fun c hc => (hb.2 c hc).2) hnt.2]
      simp only [times, List.map_cons, stateAt_cons]
      by_cases hx : x.t < t
      · simp only [hx, if_true, Bool.not_true]
        constructor
        · rintro (⟨_, _, h3⟩ | h)
          · exact absurd h3 (not_le.mpr hx)
          · exact h
        · exact Or.inr
      · have htx : t ≤ x.t := not_lt.mp hx
        have hlater : ∀ c ∈ List.map (·.t) rest, t ≤ c :=
          fun c hc => le_trans htx (hs.1 c hc).le
        simp only [hx, if_false]
        rw [stateAt_later _ _ _ hlater, stateAt_later _ _ _ hlater]
        simp [hta, htx, lt_of_le_of_lt hta (lt_of_le_of_ne htx hnt.1)]

theorem directedPairs_fst (b : F) :
    ∀ (m : Nat) (l : List (LabeledCrossing F)), l.length ≤ m →
            ∀ p ∈ directedPairs b l, p.1 ∈ times l := by
  intro m
  induction m with
  | zero =>
    intro l hl p hp
    have : l = [] := List.length_eq_zero_iff.mp (by omega)
    subst this; simp [directedPairs] at hp
  | succ m ihm =>
    intro l hl p hp
    match l, hl, hp with
    | [], _, hp => simp [directedPairs] at hp
    | [u], _, hp =>
      rw [directedPairs] at hp
      split at hp
      · simp only at hp
        split at hp
        · simp at hp; subst hp; simp [times]
        · simp at hp
      · simp [directedPairs] at hp
    | u :: v :: r, hl, hp =>
      rw [directedPairs] at hp
      split at hp
      · simp only at hp
        split at hp
        · rcases List.mem_append.mp hp with h | h
          · split at h
            · simp at h; subst h; simp [times]
            · simp at h
          · have := ihm r (by simp at hl; omega) p h
            simp only [times, List.map_cons, List.mem_cons] at this ⊢
            exact Or.inr (Or.inr this)
        · rcases List.mem_append.mp hp with h | h
          · split at h
            · simp at h; subst h; simp [times]
            · simp at h
          · have := ihm (v :: r) (by simp at hl ⊢; omega) p h
            simp only [times, List.map_cons, List.mem_cons] at this ⊢
            exact Or.inr this
      · have := ihm (v :: r) (by simp at hl ⊢; omega) p hp
        simp only [times, List.map_cons, List.mem_cons] at this ⊢
        exact Or.inr this

theorem directedPairs_wf (b : F) :
    ∀ (n : Nat) (l : List (LabeledCrossing F)) (a : F), l.length ≤ n → Alternates false l →
      (times l).Pairwise (· < ·) → (∀ c ∈ times l, a ≤ c ∧ c ≤ b) →
      WellFormed a b (directedPairs b l) := by
  intro n
  induction n with
  | zero =>
    intro l a hl _ _ _
    have : l = [] := List.length_eq_zero_iff.mp (by omega)
    subst this
    simp [directedPairs, WellFormed]
  | succ n ih =>
    intro l a hl halt hs hb
    match l, hl, halt, hs, hb with
    | [], _, _, _, _ => simp [directedPairs, WellFormed]
    | [x], _, halt, _, hb =>
      have hd : x.direction = 1 := halt.1
      have hx := hb x.t (by simp [times])
      rw [directedPairs, if_pos hd]
      by_cases h : x.t < b <;> simp [WellFormed, h, hx.1]
    | x :: y :: rest, hl, halt, hs, hb =>
      have hd : x.direction = 1 := halt.1
      have hd2 : y.direction = -1 := halt.2.1
      simp only [times, List.map_cons, List.pairwise_cons, List.mem_cons, forall_eq_or_imp] at hs hb
      rw [directedPairs, if_pos hd]
      simp only [hd2, if_true, hs.1.1]
      have key : ∀ c ∈ times rest, y.t < c := hs.2.1
      have hrest := ih rest a (by simp at hl; omega) halt.2.2 hs.2.2 hb.2.2
      have hstart : ∀ p ∈ directedPairs b rest, y.t < p.1 := by
        intro p hp
        exact key _ (directedPairs_fst b _ rest le_rfl p hp)
      constructor
      · intro p hp
        rcases List.mem_append.mp hp with h | h
        · simp at h; subst h
          exact ⟨hb.1.1, hs.1.1, hb.2.1.2⟩
        · exact hrest.1 p h
      · simp only [List.singleton_append, List.pairwise_cons]
        exact ⟨fun p hp => hstart p hp, hrest.2⟩

theorem buildDirected_wf (a b : F) (hab : a < b) (s : Bool)
    (l : List (LabeledCrossing F)) (halt : Alternates s l)
    (hs : (times l).Pairwise (· < ·)) (hb : ∀ c ∈ times l, a ≤ c ∧ c ≤ b) :
    WellFormed a b (buildAbovePeriodsDirected l a b s) := by
  cases l with
  | nil => cases s <;> simp [buildAbovePeriodsDirected, WellFormed, hab]
  | cons x rest =>
    cases s with
    | false =>
      rw [buildAbovePeriodsDirected, if_neg (by simp)]
      exact directedPairs_wf b _ _ a le_rfl halt hs hb
    | true =>
      have hd : x.direction = -1 := halt.1
      rw [buildAbovePeriodsDirected, if_pos ⟨rfl, hd⟩]
      simp only [times, List.map_cons, List.pairwise_cons, List.mem_cons, forall_eq_or_imp] at hs hb
      have hrest := directedPairs_wf b _ rest a le_rfl halt.2 hs.2 hb.2
      by_cases h : a < x.t
      · simp only [h, if_true]
        refine ⟨fun p hp => ?_, ?_⟩
        · rcases List.mem_append.mp hp with h' | h'
          · simp at h'; subst h'; exact ⟨le_rfl, h, hb.1.2⟩
          · exact hrest.1 p h'
        · simp only [List.singleton_append, List.pairwise_cons]
          exact ⟨fun p hp => hs.1 _ (directedPairs_fst b _ rest le_rfl p hp), hrest.2⟩
      · simpa only [h, if_false, List.nil_append] using hrest

/-! ### The sampling grid -/

/-- The cells visited by the scan loops, in order. -/
def gridCells (tEnd step : F) : Nat → F → Option (List (F × F))
  | 0, _ => none
  | n + 1, t =>
    if t < tEnd then (gridCells tEnd step n (nextTime tEnd step t)).map ((t, nextTime tEnd step t) :: ·)
    else some []

/-- Crossing contributed by one cell to the directed scan. -/
def cellDirected (root : RootFinder F) (g : F → F) (tStart tEnd : F) (c : F × F) :
    Option (LabeledCrossing F) :=
  match bracketDirection (g c.1) (g c.2) with
  | some d =>
    match root c.1 c.2 (g c.1) (g c.2) g with
    | some r => if r ≥ tStart ∧ r ≤ tEnd then some ⟨r, d⟩ else none
    | none => none
  | none => none

/-- Crossing contributed by one cell to the plain scan. -/
def cellPlain (root : RootFinder F) (g : F → F) (tStart tEnd : F) (c : F × F) : Option F :=
  (cellDirected root g tStart tEnd c).map (·.t)

theorem findDirectedLoop_eq (root : RootFinder F) (g : F → F) (a b step : F) (n : Nat) (t : F)
    (acc : List (LabeledCrossing F)) :
    findDirectedLoop root g a b step n t (g t) acc
      = (gridCells b step n t).map (fun cs => acc ++ cs.filterMap (cellDirected root g a b)) := by
  induction n generalizing t acc with
  | zero => rfl
  | succ n ih =>
    simp only [findDirectedLoop, gridCells]
    by_cases h : t < b
    · simp only [h, if_true]
      rw [ih, Option.map_map]
      congr 1
      funext cs
      simp only [Function.comp, List.filterMap_cons, cellDirected]
      cases bracketDirection (g t) (g (nextTime b step t)) with
      | none => simp
      | some d =>
        cases root t (nextTime b step t) (g t) (g (nextTime b step t)) g with
        | none => simp
        | some r => by_cases hr : r ≥ a ∧ r ≤ b <;> simp [hr]
    · simp [h]

theorem bracketDirection_none (p q : F) :
    bracketDirection p q = none ↔ ¬ ((p < 0 ∧ q > 0) ∨ (p > 0 ∧ q < 0)) := by
  unfold bracketDirection
  split
  · simp_all
  · split <;> simp_all

theorem findCrossingsLoop_eq (root : RootFinder F) (g : F → F) (a b step : F) (n : Nat) (t : F)
    (acc : List F) :
    findCrossingsLoop root g a b step n t (g t) acc
      = (gridCells b step n t).map (fun cs => acc ++ cs.filterMap (cellPlain root g a b)) := by
  induction n generalizing t acc with
  | zero => rfl
  | succ n ih =>
    simp only [findCrossingsLoop, gridCells]
    by_cases h : t < b
    · simp only [h, if_true]
      rw [ih, Option.map_map]
      congr 1
      funext cs
      simp only [Function.comp, List.filterMap_cons, cellPlain, cellDirected]
      cases hd : bracketDirection (g t) (g (nextTime b step t)) with
      | none =>
        rw [bracketDirection_none] at hd
        simp [hd]
      | some d =>
        have : (g t < 0 ∧ g (nextTime b step t) > 0) ∨ (g t > 0 ∧ g (nextTime b step t) < 0) := by
          by_contra hc
          rw [← bracketDirection_none, hd] at hc
          simp at hc
        simp only [this, if_true]
        cases root t (nextTime b step t) (g t) (g (nextTime b step t)) g with
        | none => simp
        | some r => by_cases hr : r ≥ a ∧ r ≤ b <;> simp [hr]
    · simp [h]

variable [IsStrictOrderedRing F]

theorem nextTime_eq_min (b step t : F) : nextTime b step t = min (t + step) b := by
  unfold nextTime
  split
  · rename_i h; exact (min_eq_left h).symm
  · rename_i h; exact (min_eq_right (le_of_not_ge h)).symm

/-- The cells are those of the specification: cell `k` of the list starts at `t + k step`. -/
theorem gridCells_get (b step : F) (hstep : 0 < step) (n : Nat) (t : F) (cs : List (F × F))
    (h : gridCells b step n t = some cs) (k : Nat) :
    (t + k * step < b → cs[k]? = some (cellLo t step k, cellHi t b step k)) ∧
    (¬ t + k * step < b → cs[k]? = none) := by
  induction n generalizing t cs k with
  | zero => simp [gridCells] at h
  | succ n ih =>
    simp only [gridCells] at h
    by_cases htb : t < b
    · simp only [htb, if_true, Option.map_eq_some_iff] at h
      obtain ⟨cs', h', rfl⟩ := h
      cases k with
      | zero =>
        simp [htb, cellLo, cellHi, nextTime_eq_min]
      | succ k =>
        rw [List.getElem?_cons_succ]
        obtain ⟨i1, i2⟩ := ih _ cs' h' k
        rw [nextTime_eq_min] at i1 i2
        have hc : ((k + 1 : Nat) : F) = k + 1 := by push_cast; ring
        by_cases hlast : t + step ≤ b
        · rw [min_eq_left hlast] at i1 i2
          have e : t + step + (k : F) * step = t + ((k + 1 : Nat) : F) * step := by rw [hc]; ring
          rw [e] at i1 i2
          refine ⟨fun hk => ?_, i2⟩
          rw [i1 hk]
          simp only [cellLo, cellHi, Option.some.injEq, Prod.mk.injEq]
          refine ⟨e, ?_⟩
          congr 1
          rw [hc]; ring
        · have hb : b < t + step := lt_of_not_ge hlast
          rw [min_eq_right hb.le] at i1 i2
          have hge : ¬ b + (k : F) * step < b := by
            have : 0 ≤ (k : F) * step := mul_nonneg (Nat.cast_nonneg k) hstep.le
            linarith
          have hge2 : ¬ t + ((k + 1 : Nat) : F) * step < b := by
            have : 0 ≤ (k : F) * step := mul_nonneg (Nat.cast_nonneg k) hstep.le
            rw [hc]; nlinarith
          exact ⟨fun hk => absurd hk hge2, fun _ => i2 hge⟩
    · simp only [htb, if_false, Option.some.injEq] at h
      subst h
      have : ¬ t + (k : F) * step < b := by
        have : 0 ≤ (k : F) * step := mul_nonneg (Nat.cast_nonneg k) hstep.le
        intro h; exact htb (by linarith)
      exact ⟨fun hk => absurd hk this, fun _ => by simp⟩

/-- Cells form a chain from `t` to `b`. -/
inductive Chain (b : F) : F → List (F × F) → Prop
  | nil : Chain b b []
  | cons (lo hi : F) (cs : List (F × F)) : lo < hi → hi ≤ b → Chain b hi cs →
      Chain b lo ((lo, hi) :: cs)

theorem gridCells_chain (b step : F) (hstep : 0 < step) (n : Nat) (t : F) (ht : t ≤ b)
    (cs : List (F × F)) (h : gridCells b step n t = some cs) : Chain b t cs := by
  induction n generalizing t cs with
  | zero => simp [gridCells] at h
  | succ n ih =>
    simp only [gridCells] at h
    by_cases htb : t < b
    · simp only [htb, if_true, Option.map_eq_some_iff] at h
      obtain ⟨cs', h', rfl⟩ := h
      rw [nextTime_eq_min] at h' ⊢
      exact Chain.cons _ _ _ (lt_min (by linarith) htb) (min_le_right _ _) (ih _ (min_le_right _ _) _ h')
    · simp only [htb, if_false, Option.some.injEq] at h
      subst h
      have : t = b := le_antisymm ht (not_lt.mp htb)
      subst this
      exact Chain.nil

theorem gridCells_terminates [Archimedean F] (b step : F) (hstep : 0 < step) (t : F) :
    ∃ N, ∀ n, N ≤ n → (gridCells b step n t).isSome := by
  obtain ⟨m, hm⟩ := Archimedean.arch (b - t) hstep
  rw [nsmul_eq_mul] at hm
  refine ⟨m + 2, ?_⟩
  induction m generalizing t with
  | zero =>
    intro n hn
    obtain ⟨n, rfl⟩ : ∃ k, n = k + 1 := ⟨n - 1, by omega⟩
    simp only [gridCells]
    rw [if_neg (by push_cast at hm; intro h; linarith)]
    rfl
  | succ m ih =>
    intro n hn
    obtain ⟨n, rfl⟩ : ∃ k, n = k + 1 := ⟨n - 1, by omega⟩
    simp only [gridCells]
    split
    · rw [Option.isSome_map]
      by_cases hlast : t + step ≤ b
      · apply ih _ _ _ (by omega)
        rw [nextTime_eq_min, min_eq_left hlast]
        push_cast at hm
        linarith
      · apply ih _ _ _ (by omega)
        rw [nextTime_eq_min, min_eq_right (le_of_not_ge hlast)]
        have : 0 ≤ (m : F) * step := mul_nonneg (Nat.cast_nonneg m) hstep.le
        linarith
    · rfl

theorem gridCells_diverges (b step : F) (hstep : step ≤ 0) (n : Nat) (t : F) (h : t < b) :
    gridCells b step n t = none := by
  induction n generalizing t with
  | zero => rfl
  | succ n ih =>
    simp only [gridCells, h, if_true]
    rw [nextTime_eq_min, min_eq_left (by linarith), ih _ (by linarith)]
    rfl

end Verif.Event
