import Verif.Eop.Model
import Verif.Cpf.Props
import Mathlib.Tactic.Linarith
import Mathlib.Tactic.FieldSimp
import Mathlib.Tactic.Ring
import Mathlib.Data.List.TakeWhile
import Mathlib.Data.Rat.Floor
import Mathlib.Tactic.LinearCombination

/-! Claims C133-C135: Earth orientation parameters. -/
namespace Verif.Eop.Props
open Verif.Text Verif.Eop

/-! ### C133: interpolation -/

section
variable {K : Type} [Field K] [LinearOrder K] [IsStrictOrderedRing K]

/-- `v` at `t` lies on the straight line through `(ta, va)` and `(tb, vb)`. -/
def OnChord (ta va tb vb t v : K) : Prop := (v - va) * (tb - ta) = (vb - va) * (t - ta)

/-- All six parameters of `r` lie on the chords between `a` and `b`, and `r` is dated `t`. -/
structure Chord (a b : Rec K K) (t : K) (r : Rec K K) : Prop where
  mjd : r.mjd = t
  dut1 : OnChord a.mjd a.eop.dut1 b.mjd b.eop.dut1 t r.eop.dut1
  lod : OnChord a.mjd a.eop.lod b.mjd b.eop.lod t r.eop.lod
  xp : OnChord a.mjd a.eop.xp b.mjd b.eop.xp t r.eop.xp
  yp : OnChord a.mjd a.eop.yp b.mjd b.eop.yp t r.eop.yp
  dx : OnChord a.mjd a.eop.dx b.mjd b.eop.dx t r.eop.dx
  dy : OnChord a.mjd a.eop.dy b.mjd b.eop.dy t r.eop.dy

/-- `a` and `b` are neighbours in the table and `t` lies between them. -/
def Bracket (recs : List (Rec K K)) (t : K) (a b : Rec K K) : Prop :=
  (∃ pre post, recs = pre ++ a :: b :: post) ∧ a.mjd ≤ t ∧ t < b.mjd

/-- The table is in strictly increasing order of date. -/
def Sorted (recs : List (Rec K K)) : Prop := recs.Pairwise (fun a b => a.mjd < b.mjd)

omit [IsStrictOrderedRing K] in
theorem search_spec (recs : List (Rec K K)) (t : K) : ∀ (n lo hi : Nat), hi - lo ≤ n + 1 → lo < hi → hi < recs.length →
    (∃ a, recs[lo]? = some a ∧ a.mjd ≤ t) → (∃ b, recs[hi]? = some b ∧ t < b.mjd) →
    ∃ k a b, search recs t n lo hi = some (k, k + 1) ∧ recs[k]? = some a ∧ recs[k + 1]? = some b ∧ a.mjd ≤ t ∧ t < b.mjd := by
  intro n
  induction n with
  | zero =>
    intro lo hi h hlt hlen ⟨a, ha, hat⟩ ⟨b, hb, hbt⟩
    have e : hi = lo + 1 := by omega
    subst e
    exact ⟨lo, a, b, rfl, ha, hb, hat, hbt⟩
  | succ n ih =>
    intro lo hi h hlt hlen ⟨a, ha, hat⟩ ⟨b, hb, hbt⟩
    unfold search
    by_cases hgap : hi - lo > 1
    · rw [if_pos hgap]
      have hm : (lo + hi) / 2 < recs.length := by omega
      rw [List.getElem?_eq_getElem hm]
      dsimp only
      by_cases hc : recs[(lo + hi) / 2].mjd ≤ t
      · rw [if_pos hc]
        exact ih _ _ (by omega) (by omega) hlen ⟨_, List.getElem?_eq_getElem hm, hc⟩ ⟨b, hb, hbt⟩
      · rw [if_neg hc]
        exact ih _ _ (by omega) (by omega) hm ⟨a, ha, hat⟩ ⟨_, List.getElem?_eq_getElem hm, not_le.mp hc⟩
    · rw [if_neg hgap]
      have e : hi = lo + 1 := by omega
      subst e
      exact ⟨lo, a, b, rfl, ha, hb, hat, hbt⟩

theorem lerp_chord {ta tb : K} (h : ta < tb) (va vb t : K) : OnChord ta va tb vb t (lerp ((t - ta) / (tb - ta)) va vb) := by
  have hne : tb - ta ≠ 0 := (sub_pos.mpr h).ne'
  unfold OnChord lerp
  field_simp
  ring

theorem between_chord {a b : Rec K K} (h : a.mjd < b.mjd) (t : K) : Chord a b t (between a b t) where
  mjd := rfl
  dut1 := lerp_chord h _ _ _
  lod := lerp_chord h _ _ _
  xp := lerp_chord h _ _ _
  yp := lerp_chord h _ _ _
  dx := lerp_chord h _ _ _
  dy := lerp_chord h _ _ _

omit [IsStrictOrderedRing K] in
theorem split_at {recs : List (Rec K K)} {k : Nat} {a b : Rec K K} (ha : recs[k]? = some a) (hb : recs[k + 1]? = some b) :
    ∃ pre post, recs = pre ++ a :: b :: post := by
  obtain ⟨h0, e0⟩ := List.getElem?_eq_some_iff.mp ha
  obtain ⟨h1, e1⟩ := List.getElem?_eq_some_iff.mp hb
  refine ⟨recs.take k, recs.drop (k + 2), ?_⟩
  rw [← e0, ← e1, ← List.drop_eq_getElem_cons, ← List.drop_eq_getElem_cons, List.take_append_drop]

/-- C133. Whatever the table (even out of order), an epoch strictly after its first and strictly
before its last record is answered by linear interpolation between two neighbouring records around it:
no panic, no division by zero. -/
theorem interpolate_inside {recs : List (Rec K K)} {first last : Rec K K} (hf : recs.head? = some first)
    (hl : recs.getLast? = some last) {t : K} (h0 : first.mjd < t) (h1 : t < last.mjd) :
    ∃ a b r, Bracket recs t a b ∧ interpolate recs t = some (some r) ∧ Chord a b t r := by
  have hne : recs ≠ [] := by rintro rfl; simp at hf
  have hf' : recs[0]? = some first := by rw [← List.head?_eq_getElem?]; exact hf
  have hl' : recs[recs.length - 1]? = some last := by rw [← List.getLast?_eq_getElem?]; exact hl
  have hpos : 0 < recs.length := List.length_pos_iff.mpr hne
  have hlen : 0 < recs.length - 1 := by
    by_contra hc
    have e : recs.length - 1 = 0 := by omega
    rw [e, hf'] at hl'
    cases hl'
    exact absurd h1 (not_lt.mpr h0.le)
  obtain ⟨k, a, b, hs, ha, hb, hat, hbt⟩ := search_spec recs t recs.length 0 (recs.length - 1) (by omega) hlen (by omega)
    ⟨first, hf', h0.le⟩ ⟨last, hl', h1⟩
  refine ⟨a, b, between a b t, ⟨split_at ha hb, hat, hbt⟩, ?_, between_chord (lt_of_le_of_lt hat hbt) t⟩
  unfold interpolate
  rw [if_neg hne, hf', hl']
  dsimp only
  rw [if_neg (not_le.mpr h0), if_neg (not_le.mpr h1), hs]
  dsimp only
  rw [ha, hb]

omit [IsStrictOrderedRing K] in
/-- C133. An epoch not after the first record gets the first record itself. -/
theorem interpolate_before {recs : List (Rec K K)} {first : Rec K K} (hf : recs.head? = some first) {t : K} (h : t ≤ first.mjd) :
    interpolate recs t = some (some first) := by
  have hne : recs ≠ [] := by rintro rfl; simp at hf
  have hf' : recs[0]? = some first := by rw [← List.head?_eq_getElem?]; exact hf
  have hpos : 0 < recs.length := List.length_pos_iff.mpr hne
  unfold interpolate
  rw [if_neg hne, hf', List.getElem?_eq_getElem (by omega : recs.length - 1 < recs.length)]
  dsimp only
  rw [if_pos h]

omit [IsStrictOrderedRing K] in
/-- C133. An epoch after the first and not before the last record gets the last record itself. -/
theorem interpolate_after {recs : List (Rec K K)} {first last : Rec K K} (hf : recs.head? = some first)
    (hl : recs.getLast? = some last) {t : K} (h0 : first.mjd < t) (h : last.mjd ≤ t) :
    interpolate recs t = some (some last) := by
  have hne : recs ≠ [] := by rintro rfl; simp at hf
  have hf' : recs[0]? = some first := by rw [← List.head?_eq_getElem?]; exact hf
  have hl' : recs[recs.length - 1]? = some last := by rw [← List.getLast?_eq_getElem?]; exact hl
  unfold interpolate
  rw [if_neg hne, hf', hl']
  dsimp only
  rw [if_neg (not_le.mpr h0), if_pos h]

/-- C133. The answer is missing exactly for the empty table, and the function never panics. -/
theorem interpolate_total (recs : List (Rec K K)) (t : K) :
    (recs = [] ∧ interpolate recs t = some none) ∨ (recs ≠ [] ∧ ∃ r, interpolate recs t = some (some r)) := by
  by_cases hne : recs = []
  · exact Or.inl ⟨hne, by simp [interpolate, hne]⟩
  · refine Or.inr ⟨hne, ?_⟩
    have hf := List.head?_eq_some_head hne
    have hl := List.getLast?_eq_some_getLast hne
    rcases le_or_gt t (recs.head hne).mjd with h | h
    · exact ⟨_, interpolate_before hf h⟩
    · rcases le_or_gt (recs.getLast hne).mjd t with h' | h'
      · exact ⟨_, interpolate_after hf hl h h'⟩
      · obtain ⟨a, b, r, _, e, _⟩ := interpolate_inside hf hl h h'
        exact ⟨r, e⟩

omit [IsStrictOrderedRing K] [Field K] in
/-- In a sorted table the neighbours around an epoch are unique. -/
theorem bracket_unique {recs : List (Rec K K)} (hs : Sorted recs) {t : K} {a b a' b' : Rec K K}
    (h : Bracket recs t a b) (h' : Bracket recs t a' b') : a = a' ∧ b = b' := by
  obtain ⟨⟨pre, post, e⟩, h1, h2⟩ := h
  obtain ⟨⟨pre', post', e'⟩, h1', h2'⟩ := h'
  induction recs generalizing pre pre' with
  | nil => simp at e
  | cons x l ih =>
    obtain ⟨hx, hl⟩ := List.pairwise_cons.mp hs
    cases pre with
    | nil =>
      cases pre' with
      | nil =>
        simp only [List.nil_append, List.cons.injEq] at e e'
        obtain ⟨rfl, e⟩ := e
        obtain ⟨rfl, e'⟩ := e'
        rw [e] at e'
        exact ⟨rfl, (List.cons.inj e').1⟩
      | cons y pre' =>
        exfalso
        simp only [List.nil_append, List.cons_append, List.cons.injEq] at e e'
        obtain ⟨rfl, e⟩ := e
        obtain ⟨rfl, e'⟩ := e'
        subst e
        have hp := (List.pairwise_cons.mp hl).1
        cases pre' with
        | nil =>
          simp only [List.nil_append, List.cons.injEq] at e'
          rw [← e'.1] at h1'
          exact absurd h2 (not_lt.mpr h1')
        | cons z p =>
          simp only [List.cons_append, List.cons.injEq] at e'
          have := hp a' (by rw [e'.2]; simp)
          exact absurd (lt_trans h2 this) (not_lt.mpr h1')
    | cons y pre =>
      cases pre' with
      | nil =>
        exfalso
        simp only [List.nil_append, List.cons_append, List.cons.injEq] at e e'
        obtain ⟨rfl, e⟩ := e
        obtain ⟨rfl, e'⟩ := e'
        subst e'
        have hp := (List.pairwise_cons.mp hl).1
        cases pre with
        | nil =>
          simp only [List.nil_append, List.cons.injEq] at e
          rw [← e.1] at h1
          exact absurd h2' (not_lt.mpr h1)
        | cons z p =>
          simp only [List.cons_append, List.cons.injEq] at e
          have := hp a (by rw [e.2]; simp)
          exact absurd (lt_trans h2' this) (not_lt.mpr h1)
      | cons z pre' =>
        simp only [List.cons_append, List.cons.injEq] at e e'
        exact ih hl (pre := pre) (pre' := pre') (e := e.2) (e' := e'.2)

/-- C133. In a table sorted by date, between any two neighbouring records the answer is the straight line
joining them. -/
theorem interpolate_sorted {recs : List (Rec K K)} (hs : Sorted recs) {a b : Rec K K} {t : K} (hb : Bracket recs t a b) :
    ∃ r, interpolate recs t = some (some r) ∧ (r.mjd = t ∧ Chord a b t r) := by
  have hb0 := hb
  obtain ⟨⟨pre, post, e⟩, h1, h2⟩ := hb
  have hlast : ∀ last, recs.getLast? = some last → t < last.mjd := by
    intro last hl
    rw [e, List.getLast?_append_of_ne_nil _ (by simp), List.getLast?_cons_cons] at hl
    rcases List.mem_cons.mp (List.mem_of_getLast? hl) with rfl | hm
    · exact h2
    · have : Sorted (pre ++ a :: b :: post) := e ▸ hs
      have hp := (List.pairwise_cons.mp (List.pairwise_cons.mp (List.pairwise_append.mp this).2.1).2).1
      exact lt_trans h2 (hp last hm)
  have hne : recs ≠ [] := by rw [e]; simp
  have hl := List.getLast?_eq_some_getLast hne
  have hf := List.head?_eq_some_head hne
  by_cases hfirst : t ≤ (recs.head hne).mjd
  · -- then `a` is the first record and `t` its date
    have hpre : pre = [] := by
      cases pre with
      | nil => rfl
      | cons y p =>
        exfalso
        subst e
        have := (List.pairwise_cons.mp hs).1 a (by simp)
        simp only [List.cons_append, List.head_cons] at hfirst
        exact absurd (lt_of_lt_of_le this h1) (not_lt.mpr hfirst)
    subst hpre
    subst e
    have hta : t = a.mjd := le_antisymm hfirst h1
    refine ⟨a, interpolate_before rfl hfirst, hta.symm, ?_⟩
    exact ⟨hta.symm, by simp [OnChord, hta], by simp [OnChord, hta], by simp [OnChord, hta], by simp [OnChord, hta],
      by simp [OnChord, hta], by simp [OnChord, hta]⟩
  · obtain ⟨a', b', r, hbr, er, hc⟩ := interpolate_inside hf hl (not_le.mp hfirst) (hlast _ hl)
    obtain ⟨rfl, rfl⟩ := bracket_unique hs hb0 hbr
    exact ⟨r, er, hc.mjd, hc⟩

theorem onChord_left {ta va tb vb v : K} (h : ta < tb) (hc : OnChord ta va tb vb ta v) : v = va := by
  unfold OnChord at hc
  rw [sub_self, mul_zero] at hc
  rcases mul_eq_zero.mp hc with h' | h'
  · exact sub_eq_zero.mp h'
  · exact absurd (sub_eq_zero.mp h') h.ne'

/-- C133. Every record of a sorted table is returned unchanged at its own date. -/
theorem interpolate_node {recs : List (Rec K K)} (hs : Sorted recs) {r : Rec K K} (hr : r ∈ recs) :
    interpolate recs r.mjd = some (some r) := by
  obtain ⟨pre, post, e⟩ := List.append_of_mem hr
  cases post with
  | cons b post =>
    have hlt : r.mjd < b.mjd := by
      have : Sorted (pre ++ r :: b :: post) := e ▸ hs
      exact (List.pairwise_cons.mp (List.pairwise_append.mp this).2.1).1 b (by simp)
    obtain ⟨s, es, hm, hc⟩ := interpolate_sorted hs (t := r.mjd) ⟨⟨pre, post, e⟩, le_rfl, hlt⟩
    rw [es]
    obtain ⟨m, ⟨v1, v2, v3, v4, v5, v6⟩⟩ := s
    obtain ⟨m', ⟨w1, w2, w3, w4, w5, w6⟩⟩ := r
    obtain ⟨c0, c1, c2, c3, c4, c5, c6⟩ := hc
    dsimp only at *
    rw [hm, onChord_left hlt c1, onChord_left hlt c2, onChord_left hlt c3, onChord_left hlt c4, onChord_left hlt c5, onChord_left hlt c6]
  | nil =>
    cases pre with
    | nil => rw [e]; exact interpolate_before rfl le_rfl
    | cons x pre =>
      have hlt : x.mjd < r.mjd := by
        have : Sorted (x :: pre ++ [r]) := e ▸ hs
        exact (List.pairwise_cons.mp this).1 r (by simp)
      rw [e]
      exact interpolate_after rfl (List.getLast?_concat) hlt le_rfl

theorem onChord_bounds {ta va tb vb t v : K} (h0 : ta ≤ t) (h1 : t < tb) (hc : OnChord ta va tb vb t v) :
    min va vb ≤ v ∧ v ≤ max va vb := by
  unfold OnChord at hc
  have hab : 0 < tb - ta := sub_pos.mpr (lt_of_le_of_lt h0 h1)
  have h0' : 0 ≤ t - ta := sub_nonneg.mpr h0
  have h1' : 0 ≤ tb - t := (sub_pos.mpr h1).le
  have key : v * (tb - ta) = va * (tb - t) + vb * (t - ta) := by linear_combination hc
  constructor
  · have : min va vb * (tb - ta) ≤ v * (tb - ta) := by
      rw [key]
      have e1 := mul_le_mul_of_nonneg_right (min_le_left va vb) h1'
      have e2 := mul_le_mul_of_nonneg_right (min_le_right va vb) h0'
      linarith [show min va vb * (tb - ta) = min va vb * (tb - t) + min va vb * (t - ta) by ring]
    exact le_of_mul_le_mul_right this hab
  · have : v * (tb - ta) ≤ max va vb * (tb - ta) := by
      rw [key]
      have e1 := mul_le_mul_of_nonneg_right (le_max_left va vb) h1'
      have e2 := mul_le_mul_of_nonneg_right (le_max_right va vb) h0'
      linarith [show max va vb * (tb - ta) = max va vb * (tb - t) + max va vb * (t - ta) by ring]
    exact le_of_mul_le_mul_right this hab

/-- C133. No interpolated UT1-UTC or pole coordinate ever leaves the interval of its two neighbours. -/
theorem chord_bounds {a b r : Rec K K} {t : K} (h0 : a.mjd ≤ t) (h1 : t < b.mjd) (hc : Chord a b t r) :
    (min a.eop.dut1 b.eop.dut1 ≤ r.eop.dut1 ∧ r.eop.dut1 ≤ max a.eop.dut1 b.eop.dut1) ∧
    (min a.eop.xp b.eop.xp ≤ r.eop.xp ∧ r.eop.xp ≤ max a.eop.xp b.eop.xp) ∧
    (min a.eop.yp b.eop.yp ≤ r.eop.yp ∧ r.eop.yp ≤ max a.eop.yp b.eop.yp) :=
  ⟨onChord_bounds h0 h1 hc.dut1, onChord_bounds h0 h1 hc.xp, onChord_bounds h0 h1 hc.yp⟩

/-- C133, finding. Across a leap second UT1-UTC is not interpolated but smeared: let UT1-TAI be the same
at two neighbouring days and TAI-UTC grow by one second at the second of them. Then UT1-UTC during the
first day is the first record's value, yet the answer runs ahead of it by the elapsed fraction of the day. -/
theorem leap_second_smeared {recs : List (Rec K K)} (hs : Sorted recs) {a b : Rec K K} {t : K} (hb : Bracket recs t a b)
    (hleap : b.eop.dut1 = a.eop.dut1 + 1) :
    ∃ r, interpolate recs t = some (some r) ∧ r.eop.dut1 - a.eop.dut1 = (t - a.mjd) / (b.mjd - a.mjd) := by
  obtain ⟨r, er, _, hc⟩ := interpolate_sorted hs hb
  refine ⟨r, er, ?_⟩
  have hd := hc.dut1
  unfold OnChord at hd
  have hpos : 0 < b.mjd - a.mjd := sub_pos.mpr (lt_of_le_of_lt hb.2.1 hb.2.2)
  rw [eq_div_iff hpos.ne', hd, hleap]
  ring
end

/-! A table over the leap second of 2016-12-31 (MJD 57753, 57754). -/
def day1 : Rec ℚ ℚ := ⟨57753, ⟨-4 / 10, 1 / 1000, 3 / 100, 25 / 100, 1 / 10, 2 / 10⟩⟩
def day2 : Rec ℚ ℚ := ⟨57754, ⟨6 / 10, 1 / 1000, 3 / 100, 26 / 100, 1 / 10, 2 / 10⟩⟩
def day3 : Rec ℚ ℚ := ⟨57755, ⟨59 / 100, 2 / 1000, 2 / 100, 27 / 100, 1 / 10, 3 / 10⟩⟩

theorem table_sorted : Sorted [day1, day2, day3] := by
  unfold Sorted
  simp only [List.pairwise_cons, List.mem_cons, forall_eq_or_imp, List.not_mem_nil, false_implies, implies_true, List.Pairwise.nil, and_true]
  decide +kernel

example : Bracket [day1, day2, day3] (57753 + 1 / 2) day1 day2 := ⟨⟨[], [day3], rfl⟩, by decide +kernel, by decide +kernel⟩
example : (interpolate [day1, day2, day3] (57753 + 1 / 2)).map (·.map (·.eop.dut1)) = some (some (1 / 10)) := by decide +kernel
example : day2 ∈ [day1, day2, day3] := by simp
/-- The outcome for a table out of order: still a chord, but not of the records nearest in time. -/
example : (interpolate [day1, day3, day2, ⟨57760, day1.eop⟩] (57754 + 1 / 2)).map (·.map (·.eop.dut1)) =
    some (some (-4 / 10 + 3 / 4 * (59 / 100 + 4 / 10))) := by decide +kernel

/-! ### C134: the reader -/

/-- A field that reads as the number `v`. -/
def Reads (w : Str) (v : F64) : Prop := w ≠ [] ∧ (∀ c ∈ w, isWs c = false) ∧ parseFloat w = some v

/-- A calendar field: an integer of 32 bits. -/
def ReadsInt (w : Str) : Prop := w ≠ [] ∧ (∀ c ∈ w, isWs c = false) ∧ ∃ n, parseInt (2 ^ 31 - 1) w = some n

/-- Blanks between two fields. -/
def Gap (g : Str) : Prop := g ≠ [] ∧ ∀ c ∈ g, isWs c = true

/-- The fields separated by blanks, possibly with blanks before and after. -/
inductive Row : List Str → Str → Prop
  | last (w t : Str) (ht : ∀ c ∈ t, isWs c = true) : Row [w] (w ++ t)
  | cons (w g : Str) (hg : Gap g) {ws : List Str} {t : Str} (h : Row ws t) : Row (w :: ws) (w ++ g ++ t)

theorem words_gap {g : Str} (hg : ∀ c ∈ g, isWs c = true) (t : Str) : words (g ++ t) = words t := by
  induction g with
  | nil => rfl
  | cons x g ih => rw [List.cons_append, words_ws (hg x (by simp)), ih (fun c hc => hg c (by simp [hc]))]

theorem words_row {ws : List Str} {t : Str} (h : Row ws t) (hw : ∀ w ∈ ws, w ≠ [] ∧ ∀ c ∈ w, isWs c = false) : words t = ws := by
  induction h with
  | last w t ht =>
    obtain ⟨h1, h2⟩ := hw w (by simp)
    cases t with
    | nil => rw [List.append_nil, words_single h1 h2]
    | cons x t =>
      rw [words_cons h1 h2 (ht x (by simp)), Verif.Cpf.Props.words_all_ws (fun c hc => ht c (by simp [hc]))]
  | cons w g hg h ih =>
    obtain ⟨h1, h2⟩ := hw w (by simp)
    obtain ⟨hne, hws⟩ := hg
    cases g with
    | nil => exact absurd rfl hne
    | cons x g =>
      rw [List.append_assoc, List.cons_append, words_cons h1 h2 (hws x (by simp)), words_gap (fun c hc => hws c (by simp [hc])),
        ih (fun w hw' => hw w (by simp [hw']))]

theorem row_head {ws : List Str} {w : Str} {t : Str} (h : Row (w :: ws) t) : ∃ rest, t = w ++ rest := by
  cases h with
  | last w t ht => exact ⟨t, rfl⟩
  | cons w g hg h => exact ⟨_, List.append_assoc _ _ _⟩

theorem int_head {w : Str} (h : ReadsInt w) : ∃ c t, w = c :: t ∧ isWs c = false ∧ c ≠ '#' := by
  obtain ⟨hne, hws, n, hn⟩ := h
  cases w with
  | nil => exact absurd rfl hne
  | cons c t =>
    refine ⟨c, t, rfl, hws c (by simp), ?_⟩
    rintro rfl
    simp [parseInt, parseDigits] at hn

/-- C134. A data line - year, month, day, date, and six numbers, any blanks between, any further columns - yields
one record with exactly the numbers it shows: pole coordinates, UT1-UTC, length of day, and the celestial pole
offsets converted from arcseconds to milliarcseconds. -/
theorem read_data_line {y m d : Str} (hy : ReadsInt y) (hm : ReadsInt m) (hd : ReadsInt d) {w3 w4 w5 w6 w7 w8 w9 : Str}
    {q xp yp dut1 lod dx dy : ℚ} (h3 : Reads w3 (.num q)) (h4 : Reads w4 (.num xp)) (h5 : Reads w5 (.num yp))
    (h6 : Reads w6 (.num dut1)) (h7 : Reads w7 (.num lod)) (h8 : Reads w8 (.num dx)) (h9 : Reads w9 (.num dy))
    {more : List Str} (hmore : ∀ w ∈ more, w ≠ [] ∧ ∀ c ∈ w, isWs c = false)
    {lead body : Str} (hlead : ∀ c ∈ lead, isWs c = true) (hrow : Row (y :: m :: d :: w3 :: w4 :: w5 :: w6 :: w7 :: w8 :: w9 :: more) body) :
    readLine (lead ++ body) = some ⟨q, ⟨.num dut1, .num lod, .num xp, .num yp, .num (1000 * dx), .num (1000 * dy)⟩⟩ := by
  have hwords : words (lead ++ body) = y :: m :: d :: w3 :: w4 :: w5 :: w6 :: w7 :: w8 :: w9 :: more := by
    rw [words_gap hlead, words_row hrow]
    intro w hw
    simp only [List.mem_cons] at hw
    rcases hw with rfl | rfl | rfl | rfl | rfl | rfl | rfl | rfl | rfl | rfl | hw
    · exact ⟨hy.1, hy.2.1⟩
    · exact ⟨hm.1, hm.2.1⟩
    · exact ⟨hd.1, hd.2.1⟩
    · exact ⟨h3.1, h3.2.1⟩
    · exact ⟨h4.1, h4.2.1⟩
    · exact ⟨h5.1, h5.2.1⟩
    · exact ⟨h6.1, h6.2.1⟩
    · exact ⟨h7.1, h7.2.1⟩
    · exact ⟨h8.1, h8.2.1⟩
    · exact ⟨h9.1, h9.2.1⟩
    · exact hmore w hw
  have htrim : ∃ c t, trimStart (lead ++ body) = c :: t ∧ c ≠ '#' := by
    obtain ⟨rest, e⟩ := row_head hrow
    obtain ⟨c, t, rfl, hc, hne⟩ := int_head hy
    refine ⟨c, t ++ rest, ?_, hne⟩
    rw [e]
    unfold trimStart
    rw [List.dropWhile_append_of_pos (fun a ha => hlead a ha), List.cons_append, List.dropWhile_cons_of_neg (by simp [hc])]
  obtain ⟨c, t, et, hc⟩ := htrim
  obtain ⟨n0, e0⟩ := hy.2.2
  obtain ⟨n1, e1⟩ := hm.2.2
  obtain ⟨n2, e2⟩ := hd.2.2
  unfold readLine
  rw [et, if_neg (by simp [hc]), hwords]
  dsimp only
  unfold record
  rw [if_neg (by rw [e0, e1, e2]; simp), h3.2.2]
  simp only [Option.bind_some, F64.toRat?, Option.map_some, orZero, h4.2.2, h5.2.2, h6.2.2, h7.2.2, h8.2.2, h9.2.2, Option.getD_some,
    times1000, mul_comm]

/-- Lines the reader passes over: blank, starting with `#`, or with fewer than ten fields. -/
def Silent (line : Str) : Prop :=
  (∀ c ∈ line, isWs c = true) ∨ (∃ lead t, line = lead ++ '#' :: t ∧ ∀ c ∈ lead, isWs c = true) ∨ (words line).length < 10

theorem silent_none {line : Str} (h : Silent line) : readLine line = none := by
  unfold readLine
  rcases h with h | ⟨lead, t, rfl, h⟩ | h
  · rw [if_pos (Or.inl (by unfold trimStart; exact List.dropWhile_eq_nil_iff.mpr fun c hc => h c hc))]
  · rw [if_pos (Or.inr (by
      unfold trimStart
      rw [List.dropWhile_append_of_pos (fun a ha => h a ha), List.dropWhile_cons_of_neg (by decide)]
      rfl))]
  · split
    · rfl
    · split
      · rename_i e
        rw [e] at h
        simp only [List.length_cons] at h
        omega
      · rfl

/-- The items of a file: passed-over lines, and data lines with the record they show. -/
inductive File : List Str → List (Rec ℚ F64) → Prop
  | nil : File [] []
  | skip {l : Str} {ls : List Str} {rs : List (Rec ℚ F64)} (h : Silent l) (t : File ls rs) : File (l :: ls) rs
  | data {y m d w3 w4 w5 w6 w7 w8 w9 : Str} {more : List Str} {lead body : Str} {q xp yp dut1 lod dx dy : ℚ}
      (hy : ReadsInt y) (hm : ReadsInt m) (hd : ReadsInt d) (h3 : Reads w3 (.num q)) (h4 : Reads w4 (.num xp)) (h5 : Reads w5 (.num yp))
      (h6 : Reads w6 (.num dut1)) (h7 : Reads w7 (.num lod)) (h8 : Reads w8 (.num dx)) (h9 : Reads w9 (.num dy))
      (hmore : ∀ w ∈ more, w ≠ [] ∧ ∀ c ∈ w, isWs c = false) (hlead : ∀ c ∈ lead, isWs c = true)
      (hrow : Row (y :: m :: d :: w3 :: w4 :: w5 :: w6 :: w7 :: w8 :: w9 :: more) body)
      {ls : List Str} {rs : List (Rec ℚ F64)} (t : File ls rs) :
      File ((lead ++ body) :: ls) (⟨q, ⟨.num dut1, .num lod, .num xp, .num yp, .num (1000 * dx), .num (1000 * dy)⟩⟩ :: rs)

/-- C134. A file of comments, headings and data lines is read into its data lines' records, in file order. -/
theorem read_file {ls : List Str} (hl : ∀ l ∈ ls, LineOk l) {rs : List (Rec ℚ F64)} (h : File ls rs) : read (unlines ls) = rs := by
  unfold read
  rw [lines_unlines hl]
  clear hl
  induction h with
  | nil => rfl
  | skip h t ih => rw [List.filterMap_cons, silent_none h, ih]
  | data hy hm hd h3 h4 h5 h6 h7 h8 h9 hmore hlead hrow t ih =>
    rw [List.filterMap_cons, read_data_line hy hm hd h3 h4 h5 h6 h7 h8 h9 hmore hlead hrow, ih]

/-- C134, finding. A field that is no number does not stop the reader: in the UT1-UTC column it is taken for
zero, whatever it says. -/
theorem bad_field_is_zero {y m d : Str} (hy : ReadsInt y) (hm : ReadsInt m) (hd : ReadsInt d) {w3 w4 w5 w6 w7 w8 w9 : Str} {q : ℚ}
    (h3 : Reads w3 (.num q)) (h6 : parseFloat w6 = none) :
    (record y m d w3 w4 w5 w6 w7 w8 w9).map (fun r => (r.mjd, r.eop.dut1)) = some (q, .num 0) := by
  obtain ⟨n0, e0⟩ := hy.2.2
  obtain ⟨n1, e1⟩ := hm.2.2
  obtain ⟨n2, e2⟩ := hd.2.2
  unfold record
  rw [if_neg (by rw [e0, e1, e2]; simp), h3.2.2]
  simp [F64.toRat?, orZero, h6]

/-- The line of the module's own test, with an unreadable UT1-UTC. -/
example : read "2024  1  1  60310    0.123456    0.234567    ********    0.001234    0.0001    0.0002\n".toList =
    [⟨60310, ⟨.num 0, .num (1234 / 1000000), .num (123456 / 1000000), .num (234567 / 1000000), .num (1 / 10), .num (2 / 10)⟩⟩] := by decide +kernel

/-- A line of the file the IERS publishes since 2023, with an hour column after the day: the hour is taken for
the date, the date for the pole coordinate. -/
example : read "2023   1   1   0   59945.00    0.042567    0.189867   -0.0184423    0.000286   -0.000096\n".toList =
    [⟨0, ⟨.num (189867 / 1000000), .num (-184423 / 10000000), .num 59945, .num (42567 / 1000000), .num (286 / 1000), .num (-96 / 1000)⟩⟩] := by decide +kernel

example : ReadsInt "2024".toList := ⟨by decide, by decide, 2024, by decide⟩
example : Reads "-0.0184423".toList (.num (-184423 / 10000000)) := ⟨by decide, by decide, by decide +kernel⟩
example : Silent "# IERS C04 sample".toList := Or.inr (Or.inl ⟨[], _, rfl, by simp⟩)

/-! ### C135: providers -/

/-- C135. Inside the coverage of the table the provider passes the table's values on: UT1-UTC in seconds, the pole in
arcseconds, the offsets in milliarcseconds, and the length of day converted from milliseconds to seconds; the table is asked for
the modified Julian day of the given Julian day. -/
theorem iers_inside {b : Bundle} {mjd : ℚ} {u x y dx dy ms : ℚ}
    (h : b.at_ mjd = some ⟨u, some x, some y, some dx, some dy, some ms⟩) :
    tryEopAt b (mjd + 2400000.5) = .ok ⟨u, ms / 1000, x, y, dx, dy⟩ ∧ eopAt b (mjd + 2400000.5) = ⟨u, ms / 1000, x, y, dx, dy⟩ := by
  have e : mjd + 2400000.5 - 24000005 / 10 = mjd := by ring
  have : tryEopAt b (mjd + 2400000.5) = .ok ⟨u, ms / 1000, x, y, dx, dy⟩ := by
    unfold tryEopAt
    dsimp only
    rw [e, h]
    rfl
  exact ⟨this, by unfold eopAt; rw [this]⟩

/-- C135. Outside the coverage `try_eop_at` reports the epoch it was asked for, on both scales. -/
theorem iers_outside {b : Bundle} {mjd : ℚ} (h : b.at_ mjd = none) :
    tryEopAt b (mjd + 2400000.5) = .error ⟨mjd + 2400000.5, mjd⟩ := by
  have e : mjd + 2400000.5 - 24000005 / 10 = mjd := by ring
  unfold tryEopAt
  dsimp only
  rw [e, h]

/-- C135, finding. The provider that "never fabricates zero EOP values outside coverage" answers all six parameters
with zero there: `eop_at`, which the frame transformations call, cannot be told from the null provider. -/
theorem iers_fabricates {b : Bundle} {mjd : ℚ} (h : b.at_ mjd = none) :
    eopAt b (mjd + 2400000.5) = ⟨0, 0, 0, 0, 0, 0⟩ ∧ eopAt b (mjd + 2400000.5) = nullEopAt (mjd + 2400000.5) := by
  have := iers_outside h
  constructor <;> (unfold eopAt; rw [this]; rfl)

/-- C135, finding. The same through the context for Terrestrial Time, where the fallible lookup fails. -/
theorem context_fabricates {b : Bundle} {utc : ℚ → Option ℚ} (approx : ℚ → ℚ) {tt mjd : ℚ} (hu : utc tt = some (mjd + 2400000.5))
    (h : b.at_ mjd = none) :
    eopAtTt b utc approx tt = ⟨0, 0, 0, 0, 0, 0⟩ ∧ tryEopAtTt b utc tt = some (.error ⟨mjd + 2400000.5, mjd⟩) := by
  constructor
  · unfold eopAtTt; rw [hu]; exact (iers_fabricates h).1
  · unfold tryEopAtTt; rw [hu, Option.map_some, iers_outside h]

/-- C135. Through the context the values are those of UTC; where the exact conversion fails, those of the approximate UTC. -/
theorem context_values {b : Bundle} {utc : ℚ → Option ℚ} (approx : ℚ → ℚ) {tt mjd : ℚ} {u x y dx dy ms : ℚ}
    (hu : (utc tt).getD (approx tt) = mjd + 2400000.5) (h : b.at_ mjd = some ⟨u, some x, some y, some dx, some dy, some ms⟩) :
    eopAtTt b utc approx tt = ⟨u, ms / 1000, x, y, dx, dy⟩ := by
  rw [← (iers_inside h).2]
  unfold eopAtTt
  cases hv : utc tt with
  | none => rw [hv, Option.getD_none] at hu; rw [← hu]
  | some t => rw [hv, Option.getD_some] at hu; rw [← hu]

/-- C135, finding. A row without pole coordinates or offsets (a prediction row) also reads as zeros, inside the coverage. -/
theorem iers_missing_is_zero {b : Bundle} {mjd u : ℚ} (h : b.at_ mjd = some ⟨u, none, none, none, none, none⟩) :
    tryEopAt b (mjd + 2400000.5) = .ok ⟨u, 0, 0, 0, 0, 0⟩ := by
  have e : mjd + 2400000.5 - 24000005 / 10 = mjd := by ring
  unfold tryEopAt
  dsimp only
  rw [e, h]
  rfl

/-- C135. UT1 is UTC plus the correction, in days of 86400 seconds. -/
theorem ut1_from_utc (v : Values ℚ) (jd : ℚ) : (jdUt1 v jd - jd) * 86400 = v.dut1 := by
  unfold jdUt1
  ring

/-- C135. For a table with one row per day from day `s` to day `s + n`, `len` counts the rows. -/
theorem iers_len {b : Bundle} {s : ℚ} {n : Nat} (h0 : b.start = some s) (h1 : b.stop = some (s + n)) :
    len b = n + 1 ∧ isEmpty b = false := by
  have hr : mjdRange b = some (s, s + n) := by unfold mjdRange; rw [h0, h1]; rfl
  constructor
  · unfold len
    rw [hr]
    dsimp only
    rw [add_sub_cancel_left]
    unfold asUsize
    have : (n : ℚ).floor = n := by simpa using (Rat.floor_intCast (n : ℤ))
    rw [this, Int.toNat_natCast]
  · unfold isEmpty
    rw [hr]
    rfl

/-- C135. Without a bundle the provider is empty. -/
theorem iers_empty {b : Bundle} (h : b.start = none) : len b = 0 ∧ isEmpty b = true := by
  have hr : mjdRange b = none := by unfold mjdRange; rw [h]; rfl
  exact ⟨by unfold len; rw [hr], by unfold isEmpty; rw [hr]; rfl⟩

/-- A bundle covering 2017-2026. -/
def sample : Bundle where
  start := some 57754
  stop := some (57754 + (3651 : Nat))
  at_ m := if 57754 ≤ m ∧ m ≤ 61405 then some ⟨1 / 5, some (1 / 10), some (3 / 10), some (1 / 5), some (1 / 4), some (3 / 2)⟩ else none

example : sample.at_ 60000 = some ⟨1 / 5, some (1 / 10), some (3 / 10), some (1 / 5), some (1 / 4), some (3 / 2)⟩ := by
  unfold sample; dsimp only; rw [if_pos (by norm_num)]
example : sample.at_ 70000 = none := by unfold sample; dsimp only; rw [if_neg (by norm_num)]

end Verif.Eop.Props
