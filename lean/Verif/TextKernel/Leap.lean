import Mathlib.Data.List.Induction
import Mathlib.Tactic.Linarith
import Mathlib.Tactic.FieldSimp
import Mathlib.Tactic.Ring
import Mathlib.Tactic.IntervalCases
import Mathlib.Tactic.Positivity
import Verif.TextKernel.Lemmas
import Verif.TextKernel.ClockModel

/-
Property C36: leap-second lookup.
-/
namespace Verif.TextKernel.Props
open Verif.Text Spec

/-! ### C36 -/

/-- The entry in force at `t`: not after `t`, no other such entry is later, and of equal ones the last in
the table as given. -/
def InForce (table : List (F64 × F64)) (t : F64) (e d : F64) : Prop :=
  ∃ before after, table = before ++ (e, d) :: after ∧ ieeeLe e t = true ∧
    (∀ x ∈ before, ieeeLe x.1 t = true → leF x.1 e = true) ∧
    (∀ x ∈ after, ieeeLe x.1 t = true → leF x.1 e = true ∧ leF e x.1 = false)

theorem leF_refl (a : F64) : leF a a = true := by
  rcases a with a | b | _
  · simp [leF]
  · cases b <;> rfl
  · rfl

theorem leF_total (a b : F64) : leF a b = true ∨ leF b a = true := by
  rcases a with a | ⟨⟨⟩⟩ | _ <;> rcases b with b | ⟨⟨⟩⟩ | _ <;> simp [leF, le_total]

theorem leF_trans {a b c : F64} (h1 : leF a b = true) (h2 : leF b c = true) : leF a c = true := by
  rcases a with a | ⟨⟨⟩⟩ | _ <;> rcases b with b | ⟨⟨⟩⟩ | _ <;> rcases c with c | ⟨⟨⟩⟩ | _ <;>
    simp [leF] at h1 h2 ⊢
  exact h1.trans h2

theorem ieeeLe_mono {a b t : F64} (h : leF a b = true) (hb : ieeeLe b t = true) : ieeeLe a t = true := by
  unfold ieeeLe at *
  simp only [Bool.and_eq_true, decide_eq_true_eq] at hb ⊢
  refine ⟨⟨?_, hb.1.2⟩, leF_trans h hb.2⟩
  rintro rfl
  have : b = .nan := by
    rcases b with b | ⟨⟨⟩⟩ | _ <;> simp [leF] at h ⊢
  exact hb.1.1 this

/-- The last entry in a sorted table that is not after `t`. -/
def lookup (t : F64) (l : List (F64 × F64)) : Option (F64 × F64) := (l.takeWhile (fun x => ieeeLe x.1 t)).getLast?

theorem taiLoop_eq (t : F64) (l : List (F64 × F64)) (best : F64) :
    taiLoop t l best = ((lookup t l).map (·.2)).getD best := by
  induction l generalizing best with
  | nil => rfl
  | cons x l ih =>
    obtain ⟨e, d⟩ := x
    unfold taiLoop lookup
    rw [List.takeWhile_cons]
    split
    · rw [ih]
      unfold lookup
      cases hl : (l.takeWhile (fun x => ieeeLe x.1 t)) with
      | nil => simp
      | cons y m => simp [List.getLast?_cons]
    · rename_i h
      simp [h]

/-- Sorted by epoch. -/
def SortedT (l : List (F64 × F64)) : Prop := l.Pairwise (fun a b => leF a.1 b.1 = true)

theorem insertBy_mem {x y : F64 × F64} {l : List (F64 × F64)} : y ∈ insertBy x l ↔ y = x ∨ y ∈ l := by
  induction l with
  | nil => simp [insertBy]
  | cons z l ih =>
    unfold insertBy
    split
    · simp only [List.mem_cons, ih]; tauto
    · simp

theorem insertBy_sorted {x : F64 × F64} {l : List (F64 × F64)} (h : SortedT l) : SortedT (insertBy x l) := by
  induction l with
  | nil => simp [insertBy, SortedT]
  | cons z l ih =>
    unfold SortedT at h ih ⊢
    rw [List.pairwise_cons] at h
    unfold insertBy
    split
    · rename_i hz
      rw [List.pairwise_cons]
      refine ⟨?_, ih h.2⟩
      intro y hy
      rcases insertBy_mem.mp hy with rfl | hy
      · exact hz
      · exact h.1 y hy
    · rename_i hz
      have hxz : leF x.1 z.1 = true := (leF_total x.1 z.1).resolve_right hz
      rw [List.pairwise_cons, List.pairwise_cons]
      refine ⟨?_, h⟩
      intro y hy
      rcases List.mem_cons.mp hy with rfl | hy
      · exact hxz
      · exact leF_trans hxz (h.1 y hy)

theorem sortTable_sorted (l : List (F64 × F64)) : SortedT (sortTable l) := by
  unfold sortTable
  have : ∀ acc, SortedT acc → SortedT (l.foldl (fun acc x => insertBy x acc) acc) := by
    induction l with
    | nil => exact fun acc h => h
    | cons x l ih => exact fun acc h => ih _ (insertBy_sorted h)
  exact this [] List.Pairwise.nil

theorem lookup_insert (t : F64) (x : F64 × F64) {l : List (F64 × F64)} (h : SortedT l) :
    lookup t (insertBy x l) =
      if ieeeLe x.1 t then
        match lookup t l with
        | none => some x
        | some y => if leF y.1 x.1 then some x else some y
      else lookup t l := by
  induction l with
  | nil =>
    unfold insertBy lookup
    by_cases hx : ieeeLe x.1 t = true <;> simp [hx]
  | cons z l ih =>
    unfold SortedT at h ih
    rw [List.pairwise_cons] at h
    have ih := ih h.2
    unfold insertBy
    split
    · rename_i hz
      have step : ∀ m : List (F64 × F64), lookup t (z :: m) =
          if ieeeLe z.1 t then some ((lookup t m).getD z) else none := by
        intro m
        unfold lookup
        rw [List.takeWhile_cons]
        split
        · rw [List.getLast?_cons]
        · rfl
      rw [step, step, ih]
      by_cases hx : ieeeLe x.1 t = true
      · have hzt := ieeeLe_mono hz hx
        simp only [hx, hzt, if_true]
        rcases lookup t l with _ | y
        · simp [hz]
        · simp only
          by_cases hy : leF y.1 x.1 = true <;> simp [hy]
      · simp only [hx]
        rfl
    · rename_i hz
      have hxz : leF x.1 z.1 = true := (leF_total x.1 z.1).resolve_right hz
      by_cases hx : ieeeLe x.1 t = true
      · rw [if_pos hx]
        unfold lookup
        rw [List.takeWhile_cons, hx]
        simp only
        rcases hl : ((z :: l).takeWhile (fun x => ieeeLe x.1 t)).getLast? with _ | y
        · rw [List.getLast?_eq_none_iff] at hl
          rw [hl]; rfl
        · have hym : y ∈ (z :: l) := by
            have : y ∈ (z :: l).takeWhile (fun x => ieeeLe x.1 t) := List.mem_of_getLast? hl
            exact (List.takeWhile_sublist _).subset this
          have hny : ¬ leF y.1 x.1 = true := by
            intro hy
            rcases List.mem_cons.mp hym with rfl | hym
            · exact hz hy
            · exact hz (leF_trans (h.1 y hym) hy)
          rw [if_pos trivial, List.getLast?_cons, hl]
          simp [hny]
      · rw [if_neg hx]
        unfold lookup
        rw [List.takeWhile_cons]
        have hzt : ¬ ieeeLe z.1 t = true := fun hzt => hx (ieeeLe_mono hxz hzt)
        simp [hx, hzt]

theorem lookup_sort (l : List (F64 × F64)) (t : F64) :
    (∀ x, lookup t (sortTable l) = some x → InForce l t x.1 x.2) ∧
    (lookup t (sortTable l) = none → ∀ x ∈ l, ieeeLe x.1 t = false) := by
  induction l using List.reverseRecOn with
  | nil => simp [sortTable, lookup]
  | append_singleton l x ih =>
    have hs : sortTable (l ++ [x]) = insertBy x (sortTable l) := by simp [sortTable]
    rw [hs, lookup_insert t x (sortTable_sorted l)]
    obtain ⟨ih1, ih2⟩ := ih
    by_cases hx : ieeeLe x.1 t = true
    · simp only [hx, if_true]
      rcases hl : lookup t (sortTable l) with _ | y
      · refine ⟨?_, by simp⟩
        intro w hw
        simp only [Option.some.injEq] at hw
        subst hw
        refine ⟨l, [], by simp, hx, ?_, by simp⟩
        intro y hy hyt
        rw [ih2 hl y hy] at hyt
        simp at hyt
      · obtain ⟨b, a, htab, hyt, hb, ha⟩ := ih1 y hl
        simp only
        by_cases hyx : leF y.1 x.1 = true
        · simp only [hyx, if_true]
          refine ⟨?_, by simp⟩
          intro w hw
          simp only [Option.some.injEq] at hw
          subst hw
          refine ⟨l, [], by simp, hx, ?_, by simp⟩
          intro z hz hzt
          rw [htab] at hz
          rcases List.mem_append.mp hz with hz | hz
          · exact leF_trans (hb z hz hzt) hyx
          · rcases List.mem_cons.mp hz with rfl | hz
            · exact hyx
            · exact leF_trans (ha z hz hzt).1 hyx
        · simp only [hyx]
          refine ⟨?_, by simp⟩
          intro w hw
          simp only [Bool.false_eq_true, if_false, Option.some.injEq] at hw
          subst hw
          refine ⟨b, a ++ [x], by rw [htab]; simp, hyt, hb, ?_⟩
          intro z hz hzt
          rcases List.mem_append.mp hz with hz | hz
          · exact ha z hz hzt
          · rw [List.mem_singleton] at hz
            subst hz
            exact ⟨(leF_total z.1 y.1).resolve_right hyx, by simpa using hyx⟩
    · simp only [hx]
      refine ⟨?_, ?_⟩
      · intro w hw
        obtain ⟨b, a, htab, hyt, hb, ha⟩ := ih1 w hw
        refine ⟨b, a ++ [x], by rw [htab]; simp, hyt, hb, ?_⟩
        intro z hz hzt
        rcases List.mem_append.mp hz with hz | hz
        · exact ha z hz hzt
        · rw [List.mem_singleton] at hz
          subst hz
          exact absurd hzt hx
      · intro hn z hz
        rcases List.mem_append.mp hz with hz | hz
        · exact ih2 hn z hz
        · rw [List.mem_singleton] at hz
          subst hz
          simpa using hx

/-- Whatever the order of the table in the file, the offset returned for an instant is that of the entry
in force; if there is none, it is zero. -/
theorem leap_lookup_partial (table : List (F64 × F64)) (t : F64) :
    (∃ e, InForce table t e (taiMinusUtc (sortTable table) t)) ∨
    ((∀ x ∈ table, ieeeLe x.1 t = false) ∧ taiMinusUtc (sortTable table) t = .num 0) := by
  unfold taiMinusUtc
  rw [taiLoop_eq]
  rcases h : lookup t (sortTable table) with _ | x
  · exact Or.inr ⟨(lookup_sort table t).2 h, rfl⟩
  · exact Or.inl ⟨x.1, (lookup_sort table t).1 x h⟩

/-- The table of a kernel read from text is such a sorted table. -/
theorem lsk_table_sorted {src : Str} {k : Lsk} (h : lskFromText src = some (.ok k)) :
    ∃ l, k.table = sortTable l := by
  unfold lskFromText at h
  repeat' split at h
  all_goals first
    | (simp at h; done)
    | (simp only [Option.some.injEq, Except.ok.injEq] at h; subst h; exact ⟨_, rfl⟩)

def demoLsk : Str :=
  "\\begindata\nDELTET/DELTA_T_A = 32.184\nDELTET/DELTA_AT = ( 37, @2017-JAN-1\n 10, @1972-JAN-1\n 36, @2015-JUL-1 )\n".toList

example : lskFromText demoLsk = some (.ok ⟨.num (32184 / 1000),
    [(.num (-883656000), .num 10), (.num 488980800, .num 36), (.num 536500800, .num 37)]⟩) := by decide +kernel
example : taiMinusUtc [(.num (-883656000), .num 10), (.num 488980800, .num 36), (.num 536500800, .num 37)]
    (.num 536500799) = .num 36 := by decide +kernel

/-- Disagreement: an instant before the table gives the offset zero, as if it were a table value; it is
not reported. -/
theorem before_table_not_reported :
    taiMinusUtc (sortTable [(.num 100, .num 10)]) (.num 99) = taiMinusUtc (sortTable [(.num 50, .num 0)]) (.num 99) := by
  decide +kernel

end Verif.TextKernel.Props
