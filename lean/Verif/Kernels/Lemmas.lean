import Mathlib.Data.List.Perm.Basic
import Verif.Kernels.Model
import Verif.TextKernel.Props

/-
Facts about keys, identifiers and the loops over identifiers.
-/
namespace Verif.Kernels
open Verif.Text Verif.TextKernel Verif.TextKernel.Spec

/-- The identifiers of 32 bits. -/
def IsI32 (i : Int) : Prop := -(2 ^ 31 : Int) ≤ i ∧ i < 2 ^ 31

/-! ### Identifiers as text -/

/-- Digits and the minus sign. -/
def idChar (c : Char) : Prop := c.isDigit = true ∨ c = '-'

theorem idStr_chars (i : Int) : ∀ c ∈ idStr i, idChar c := by
  intro c hc
  unfold idStr at hc
  rw [List.mem_append] at hc
  rcases hc with hc | hc
  · split at hc
    · rw [List.mem_singleton] at hc
      exact Or.inr hc
    · cases hc
  · have := (natStr_digits i.natAbs).1
    rw [List.all_eq_true] at this
    exact Or.inl (this c hc)

theorem idStr_ne (i : Int) : idStr i ≠ [] := by
  unfold idStr
  have := (natStr_digits i.natAbs).2.1
  simp [this]

theorem parse_idStr {i : Int} (h : IsI32 i) : parseInt (2 ^ 31 - 1) (idStr i) = some i := by
  obtain ⟨h1, h2, h3⟩ := natStr_digits i.natAbs
  obtain ⟨ha, hb⟩ := h
  unfold idStr
  split
  · rename_i hn
    rw [List.singleton_append]
    show (parseDigits (natStr i.natAbs)).bind _ = _
    rw [parseDigits_of h1 h2]
    simp only [Option.bind_some]
    have h3' : digitsVal (natStr i.natAbs) = i.natAbs := h3
    rw [h3', if_pos (by omega)]
    congr 1
    omega
  · rename_i hn
    have h3' : digitsVal (natStr i.natAbs) = i.natAbs := h3
    rw [List.nil_append, parseInt_of h1 h2 (by rw [h3']; omega), h3']
    congr 1
    omega

theorem idStr_inj {i j : Int} (h : idStr i = idStr j) : i = j := by
  have key : ∀ k : Int, (idStr k).head? = some '-' ↔ k < 0 := by
    intro k
    unfold idStr
    constructor
    · intro hk
      by_contra hn
      rw [if_neg hn, List.nil_append] at hk
      have h1 := (natStr_digits k.natAbs).1
      rw [List.all_eq_true] at h1
      have := h1 '-' (List.mem_of_mem_head? (by rw [hk]; rfl))
      revert this
      decide
    · intro hk
      rw [if_pos hk]
      rfl
  have h3 : ∀ n, digitsVal (natStr n) = n := fun n => (natStr_digits n).2.2
  have hsign : i < 0 ↔ j < 0 := by rw [← key i, ← key j, h]
  unfold idStr at h
  by_cases hi : i < 0
  · rw [if_pos hi, if_pos (hsign.mp hi), List.singleton_append, List.singleton_append] at h
    have := congrArg digitsVal (List.cons.inj h).2
    rw [h3, h3] at this
    have := hsign.mp hi
    omega
  · have hj : ¬ j < 0 := fun hc => hi (hsign.mpr hc)
    rw [if_neg hi, if_neg hj, List.nil_append, List.nil_append] at h
    have := congrArg digitsVal h
    rw [h3, h3] at this
    omega

theorem idChar_upper {c : Char} (h : idChar c) : upperC c = c := by
  unfold upperC
  rw [if_neg]
  rintro ⟨h1, h2⟩
  rcases h with h | rfl
  · rw [Char.isDigit] at h
    simp only [Bool.and_eq_true, decide_eq_true_eq] at h
    have a : c.val ≤ 57 := h.2
    have b : (97 : UInt32) ≤ c.val := h1
    exact absurd (UInt32.le_trans b a) (by decide)
  · revert h1
    decide

theorem upper_append (s t : Str) : upper (s ++ t) = upper s ++ upper t := List.map_append

theorem upper_idStr (i : Int) : upper (idStr i) = idStr i := by
  unfold upper
  have : ∀ c ∈ idStr i, upperC c = c := fun c hc => idChar_upper (idStr_chars i c hc)
  conv_rhs => rw [← List.map_id (idStr i)]
  exact List.map_congr_left this

theorem under_not_id {c : Char} (h : idChar c) : c ≠ '_' := by
  rintro rfl
  rcases h with h | h <;> revert h <;> decide

theorem under_notin (i : Int) : '_' ∉ idStr i := fun h => under_not_id (idStr_chars i _ h) rfl

theorem stripPrefix_append (p s : Str) : stripPrefix p (p ++ s) = some s := by
  induction p with
  | nil => rfl
  | cons a p ih => simp [stripPrefix, ih]

theorem stripPrefix_some {p s r : Str} : stripPrefix p s = some r ↔ s = p ++ r := by
  constructor
  · intro h
    induction p generalizing s with
    | nil => simpa [stripPrefix] using h
    | cons a p ih =>
      cases s with
      | nil => simp [stripPrefix] at h
      | cons c s =>
        rw [stripPrefix] at h
        split at h
        · rename_i e
          rw [e, ih h]
          rfl
        · cases h
  · rintro rfl
    exact stripPrefix_append p r

theorem stripSuffix_some {p s r : Str} : stripSuffix p s = some r ↔ s = r ++ p := by
  unfold stripSuffix
  rw [Option.map_eq_some_iff]
  constructor
  · rintro ⟨t, ht, rfl⟩
    rw [stripPrefix_some] at ht
    have := congrArg List.reverse ht
    simpa using this
  · rintro rfl
    exact ⟨r.reverse, by rw [stripPrefix_some]; simp, by simp⟩

/-! ### The loops over identifiers -/

theorem mem_insertId {x y : Int} {l : List Int} : y ∈ insertId x l ↔ y = x ∨ y ∈ l := by
  induction l with
  | nil => simp [insertId]
  | cons a l ih =>
    unfold insertId
    split
    · simp
    · split
      · rename_i h
        subst h
        simp
      · simp only [List.mem_cons, ih]
        tauto

theorem insertId_sorted {x : Int} {l : List Int} (h : l.Pairwise (· < ·)) : (insertId x l).Pairwise (· < ·) := by
  induction l with
  | nil => simp [insertId]
  | cons a l ih =>
    have h' := h
    rw [List.pairwise_cons] at h
    unfold insertId
    split
    · rename_i hx
      rw [List.pairwise_cons]
      refine ⟨?_, h'⟩
      intro b hb
      rcases List.mem_cons.mp hb with rfl | hb
      · exact hx
      · exact lt_trans hx (h.1 b hb)
    · split
      · exact h'
      · rename_i h1 h2
        rw [List.pairwise_cons]
        refine ⟨?_, ih h.2⟩
        intro b hb
        rcases mem_insertId.mp hb with rfl | hb
        · omega
        · exact h.1 b hb

theorem mem_sortDedup {x : Int} {l : List Int} : x ∈ sortDedup l ↔ x ∈ l := by
  unfold sortDedup
  induction l with
  | nil => simp
  | cons a l ih => rw [List.foldr_cons, mem_insertId, ih, List.mem_cons]

theorem sortDedup_sorted (l : List Int) : (sortDedup l).Pairwise (· < ·) := by
  unfold sortDedup
  induction l with
  | nil => simp
  | cons a l ih => exact insertId_sorted ih

/-- A strictly increasing list is determined by its elements. -/
theorem sorted_unique : ∀ {l l' : List Int}, l.Pairwise (· < ·) → l'.Pairwise (· < ·) → (∀ x, x ∈ l ↔ x ∈ l') → l = l'
  | [], [], _, _, _ => rfl
  | [], b :: l', _, _, h => absurd ((h b).mpr List.mem_cons_self) (by simp)
  | a :: l, [], _, _, h => absurd ((h a).mp List.mem_cons_self) (by simp)
  | a :: l, b :: l', h1, h2, h => by
    rw [List.pairwise_cons] at h1 h2
    have hab : a = b := by
      rcases List.mem_cons.mp ((h a).mp List.mem_cons_self) with e | e
      · exact e
      · rcases List.mem_cons.mp ((h b).mpr List.mem_cons_self) with e' | e'
        · exact e'.symm
        · exact absurd (lt_trans (h2.1 a e) (h1.1 b e')) (lt_irrefl _)
    subst hab
    rw [sorted_unique h1.2 h2.2]
    intro x
    constructor
    · intro hx
      rcases List.mem_cons.mp ((h x).mp (List.mem_cons_of_mem _ hx)) with e | e
      · subst e
        exact absurd (h1.1 _ hx) (lt_irrefl _)
      · exact e
    · intro hx
      rcases List.mem_cons.mp ((h x).mpr (List.mem_cons_of_mem _ hx)) with e | e
      · subst e
        exact absurd (h2.1 _ hx) (lt_irrefl _)
      · exact e

theorem readAll_ok_iff {α : Type} {f : Int → K α} : ∀ {l : List Int} {xs : List α},
    readAll f l = .ok xs ↔ List.Forall₂ (fun i x => f i = .ok x) l xs
  | [], xs => by
    simp only [readAll, Except.ok.injEq, List.forall₂_nil_left_iff]
    exact eq_comm
  | i :: l, xs => by
    unfold readAll
    rw [List.forall₂_cons_left_iff]
    rcases hf : f i with e | x
    · simp
    · rcases hr : readAll f l with e | ys
      · simp only [reduceCtorEq, Except.ok.injEq, false_iff, not_exists, not_and]
        rintro b u _ h2 _
        rw [← readAll_ok_iff, hr] at h2
        cases h2
      · simp only [Except.ok.injEq]
        constructor
        · rintro rfl
          exact ⟨x, ys, rfl, readAll_ok_iff.mp hr, rfl⟩
        · rintro ⟨b, u, rfl, h2, rfl⟩
          rw [← readAll_ok_iff, hr] at h2
          injection h2 with h2
          rw [h2]

/-- A failing loop fails with the error of the first identifier that fails. -/
theorem readAll_error_iff {α : Type} {f : Int → K α} : ∀ {l : List Int} {e : KErr},
    readAll f l = .error e ↔ ∃ a i b, l = a ++ i :: b ∧ (∀ j ∈ a, ∃ x, f j = .ok x) ∧ f i = .error e
  | [], e => by simp [readAll]
  | i :: l, e => by
    unfold readAll
    rcases hf : f i with e' | x
    · simp only [Except.error.injEq]
      constructor
      · rintro rfl
        exact ⟨[], i, l, rfl, by simp, hf⟩
      · rintro ⟨a, j, b, h1, h2, h3⟩
        cases a with
        | nil =>
          injection h1 with h1 _
          subst h1
          rw [hf] at h3
          injection h3
        | cons c a =>
          injection h1 with h1 _
          subst h1
          obtain ⟨x, hx⟩ := h2 i List.mem_cons_self
          rw [hf] at hx
          cases hx
    · have ih := @readAll_error_iff α f l e
      rcases hr : readAll f l with e' | ys
      · simp only [Except.error.injEq]
        rw [hr] at ih
        simp only [Except.error.injEq] at ih
        rw [ih]
        constructor
        · rintro ⟨a, j, b, h1, h2, h3⟩
          refine ⟨i :: a, j, b, by rw [h1]; rfl, ?_, h3⟩
          intro k hk
          rcases List.mem_cons.mp hk with rfl | hk
          · exact ⟨x, hf⟩
          · exact h2 k hk
        · rintro ⟨a, j, b, h1, h2, h3⟩
          cases a with
          | nil =>
            injection h1 with h1 _
            subst h1
            rw [hf] at h3
            cases h3
          | cons c a =>
            injection h1 with _ h1
            exact ⟨a, j, b, h1, fun k hk => h2 k (List.mem_cons_of_mem _ hk), h3⟩
      · simp only [reduceCtorEq, false_iff]
        rw [hr] at ih
        simp only [reduceCtorEq, false_iff] at ih
        rintro ⟨a, j, b, h1, h2, h3⟩
        cases a with
        | nil =>
          injection h1 with h1 _
          subst h1
          rw [hf] at h3
          cases h3
        | cons c a =>
          injection h1 with _ h1
          exact ih ⟨a, j, b, h1, fun k hk => h2 k (List.mem_cons_of_mem _ hk), h3⟩

theorem bind_ok {α β : Type} {x : K α} {f : α → K β} {b : β} :
    Except.bind x f = .ok b ↔ ∃ a, x = .ok a ∧ f a = .ok b := by
  cases x <;> simp [Except.bind]

theorem bind_of {α β : Type} {x : K α} {f : α → K β} {a : α} (h : x = .ok a) : Except.bind x f = f a := by
  rw [h]
  rfl

theorem map_ok {α β : Type} {x : K α} {f : α → β} {b : β} :
    Except.map f x = .ok b ↔ ∃ a, x = .ok a ∧ f a = b := by
  cases x <;> simp [Except.map]

theorem need_ok {d : Data} {k : Str} {v : TextValue} : need d k = .ok v ↔ get d k = some v := by
  unfold need
  cases get d k <;> simp

theorem textValue_ok {v : TextValue} {k t : Str} : textValue v k = .ok t ↔ v = .text t := by
  unfold textValue
  cases v <;> simp

theorem optional_ok {α : Type} {d : Data} {k : Str} {f : TextValue → Str → K α} {o : Option α} :
    optional d k f = .ok o ↔
      (get d k = none ∧ o = none) ∨ ∃ v x, get d k = some v ∧ f v k = .ok x ∧ o = some x := by
  unfold optional
  rcases get d k with _ | v
  · simp [eq_comm]
  · simp only [Option.some.injEq, reduceCtorEq, false_and, false_or]
    rcases h : f v k with e | x
    · simp only [reduceCtorEq, false_iff, not_exists, not_and]
      rintro v' x rfl hx
      rw [h] at hx
      cases hx
    · simp only [Except.ok.injEq]
      constructor
      · rintro rfl
        exact ⟨v, x, rfl, h, rfl⟩
      · rintro ⟨v', x', rfl, hx, rfl⟩
        rw [h] at hx
        injection hx with hx
        rw [hx]

/-! ### The table of variables -/

theorem getKey_isSome {d : Data} {k : Str} : (getKey d k).isSome = true ↔ ∃ v, (k, v) ∈ d := by
  unfold getKey
  rw [Option.isSome_map, List.find?_isSome]
  constructor
  · rintro ⟨x, hx, h⟩
    rw [decide_eq_true_eq] at h
    subst h
    exact ⟨x.2, hx⟩
  · rintro ⟨v, hv⟩
    exact ⟨(k, v), hv, by simp⟩

/-- Lookups in a table without duplicate keys do not depend on its order. -/
theorem getKey_perm {d d' : Data} (h : d.Perm d') (hd : (d.map Prod.fst).Nodup) (k : Str) : getKey d k = getKey d' k := by
  have key : ∀ {e : Data}, (e.map Prod.fst).Nodup → ∀ {v}, getKey e k = some v ↔ (k, v) ∈ e := by
    intro e he v
    unfold getKey
    rw [Option.map_eq_some_iff]
    constructor
    · rintro ⟨x, hx, rfl⟩
      have h1 := List.find?_some hx
      rw [decide_eq_true_eq] at h1
      subst h1
      exact List.mem_of_find?_eq_some hx
    · intro hv
      rcases hf : e.find? (fun x => decide (x.1 = k)) with _ | x
      · rw [List.find?_eq_none] at hf
        have := hf _ hv
        simp at this
      · have h1 := List.find?_some hf
        rw [decide_eq_true_eq] at h1
        have h2 := List.mem_of_find?_eq_some hf
        refine ⟨x, hf, ?_⟩
        have := List.inj_on_of_nodup_map he h2 hv h1
        rw [this]
  ext v
  rw [key hd, key ((h.map Prod.fst).nodup_iff.mp hd), h.mem_iff]

/-- The value of a variable that is assigned once, by `=`. -/
theorem valueOf_once {as : List Assign} {a : Assign} (hd : (as.map (fun a => upper a.key)).Nodup) (ha : a ∈ as)
    (happ : a.append = false) : valueOf as (upper a.key) = some (rhsValue a.rhs) := by
  unfold valueOf
  have : as.filter (fun x => decide (upper x.key = upper a.key)) = [a] := by
    clear happ
    induction as with
    | nil => cases ha
    | cons b as ih =>
      rw [List.map_cons, List.nodup_cons] at hd
      rw [List.filter_cons]
      rcases List.mem_cons.mp ha with rfl | ha
      · rw [if_pos (by simp)]
        congr 1
        rw [List.filter_eq_nil_iff]
        intro x hx
        simp only [decide_eq_true_eq]
        intro e
        exact hd.1 (e ▸ List.mem_map_of_mem hx)
      · rw [if_neg, ih hd.2 ha]
        simp only [decide_eq_true_eq]
        intro e
        exact hd.1 (e ▸ List.mem_map_of_mem ha)
  rw [this]
  simp [finalValue, happ]

theorem valueOf_none {as : List Assign} {k : Str} (h : ∀ a ∈ as, upper a.key ≠ k) : valueOf as k = none := by
  unfold valueOf
  have : as.filter (fun x => decide (upper x.key = k)) = [] := by
    rw [List.filter_eq_nil_iff]
    intro x hx
    simpa using h x hx
  rw [this]
  rfl

theorem valueOf_isSome {as : List Assign} {k : Str} : (valueOf as k).isSome = true → ∃ a ∈ as, upper a.key = k := by
  intro h
  by_contra hn
  rw [valueOf_none (fun a ha e => hn ⟨a, ha, e⟩)] at h
  cases h

end Verif.Kernels
