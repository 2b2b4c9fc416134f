import Mathlib.Data.List.Induction
import Mathlib.Tactic.Linarith
import Mathlib.Tactic.FieldSimp
import Mathlib.Tactic.Ring
import Mathlib.Tactic.IntervalCases
import Mathlib.Tactic.Positivity
import Verif.TextKernel.Lemmas
import Verif.TextKernel.ClockModel

/-
Property C38: spacecraft clock conversions.
-/
namespace Verif.TextKernel.Props
open Verif.Text Spec

/-! ### C38 -/

section sclk
variable {K : Type} [Field K] [LinearOrder K] [IsStrictOrderedRing K]

/-- Clock and ephemeris times increase strictly. -/
def Increasing (cs : List (Coef K)) : Prop := cs.Pairwise (fun a b => a.et < b.et ∧ a.sclkdp < b.sclkdp)

/-- Neighbours satisfy a relation. -/
def Neighbours (r : Coef K → Coef K → Prop) : List (Coef K) → Prop
  | c :: n :: rest => r c n ∧ Neighbours r (n :: rest)
  | _ => True

/-- The ticks that the rate of `c` gives for the start of `n`. -/
def ticksAt (c n : Coef K) : K := c.sclkdp + (n.et - c.et) * c.rate

omit [IsStrictOrderedRing K] in
/-- The partition search returns the entry whose half-open interval holds the time. -/
theorem partLoop_spec {key : Coef K → K} : ∀ {cs : List (Coef K)} {x : K} {c : Coef K},
    cs.Pairwise (fun a b => key a < key b) → (∀ f ∈ cs.head?, key f ≤ x) → partLoop key x cs = some c →
    ∃ pre post, cs = pre ++ c :: post ∧ key c ≤ x ∧ ∀ n ∈ post.head?, x < key n
  | [], x, c, _, _, h => by simp [partLoop] at h
  | [a], x, c, _, hf, h => by
    simp only [partLoop, Option.some.injEq] at h
    subst h
    exact ⟨[], [], rfl, hf a (by simp), by simp⟩
  | a :: b :: rest, x, c, hs, hf, h => by
    rw [partLoop] at h
    have ha : key a ≤ x := hf a (by simp)
    split at h
    · rename_i hc
      simp only [Option.some.injEq] at h
      subst h
      exact ⟨[], b :: rest, rfl, ha, by simpa using hc.2⟩
    · rename_i hc
      have hb : key b ≤ x := by
        by_contra hlt
        exact hc ⟨ha, not_le.mp hlt⟩
      obtain ⟨pre, post, h1, h2, h3⟩ := partLoop_spec (List.pairwise_cons.mp hs).2 (by simpa using hb) h
      exact ⟨a :: pre, post, by rw [h1]; rfl, h2, h3⟩

omit [IsStrictOrderedRing K] in
/-- Conversely, such an entry is what the search returns. -/
theorem partLoop_of {key : Coef K → K} {c : Coef K} {post : List (Coef K)} {x : K} (hx : key c ≤ x)
    (hn : ∀ n ∈ post.head?, x < key n) : ∀ {pre : List (Coef K)},
    (pre ++ c :: post).Pairwise (fun a b => key a < key b) → partLoop key x (pre ++ c :: post) = some c
  | [], _ => by
    cases post with
    | nil => rfl
    | cons n rest =>
      rw [List.nil_append, partLoop, if_pos ⟨hx, hn n (by simp)⟩]
  | [a], hs => by
    rw [List.singleton_append, partLoop, if_neg (by rintro ⟨_, h⟩; exact absurd hx (not_le.mpr h))]
    exact partLoop_of (pre := []) hx hn (List.pairwise_cons.mp hs).2
  | a :: b :: pre, hs => by
    have hs' := (List.pairwise_cons.mp hs).2
    rw [List.cons_append, List.cons_append, partLoop, if_neg]
    · exact partLoop_of (pre := b :: pre) hx hn hs'
    · rintro ⟨_, h⟩
      have : key b < key c := (List.pairwise_cons.mp hs').1 c (by simp)
      exact absurd (this.le.trans hx) (not_le.mpr h)

omit [IsStrictOrderedRing K] in
theorem neighbours_at {r : Coef K → Coef K → Prop} {c n : Coef K} {post : List (Coef K)} :
    ∀ {pre : List (Coef K)}, Neighbours r (pre ++ c :: n :: post) → r c n
  | [], h => h.1
  | [a], h => h.2.1
  | a :: b :: pre, h => neighbours_at (pre := b :: pre) h.2

omit [IsStrictOrderedRing K] in
theorem partitionFor_of {key : Coef K → K} {c : Coef K} {pre post : List (Coef K)} {x : K} (hx : key c ≤ x)
    (hn : ∀ n ∈ post.head?, x < key n) (hs : (pre ++ c :: post).Pairwise (fun a b => key a < key b)) :
    partitionFor key (pre ++ c :: post) x = some c := by
  have hl := partLoop_of hx hn hs
  cases pre with
  | nil =>
    rw [List.nil_append] at hl ⊢
    unfold partitionFor
    simp only
    rw [if_neg (not_lt.mpr hx), hl]
  | cons a pre =>
    rw [List.cons_append] at hl hs ⊢
    have : key a < key c := (List.pairwise_cons.mp hs).1 c (by simp)
    unfold partitionFor
    simp only
    rw [if_neg (not_lt.mpr (this.le.trans hx)), hl]

omit [IsStrictOrderedRing K] in
theorem partLoop_some {key : Coef K → K} : ∀ (cs : List (Coef K)) (x : K), cs ≠ [] → ∃ c, partLoop key x cs = some c
  | [], _, h => absurd rfl h
  | [a], x, _ => ⟨a, rfl⟩
  | a :: b :: rest, x, _ => by
    rw [partLoop]
    split
    · exact ⟨_, rfl⟩
    · exact partLoop_some (b :: rest) x (by simp)

/-- Ephemeris time to ticks and back is the identity, from the first entry on, when no partition runs past
the start of the next. -/
theorem et_roundtrip {cs : List (Coef K)} (hs : Increasing cs) (hr : ∀ c ∈ cs, 0 < c.rate)
    (hcont : Neighbours (fun c n => ticksAt c n ≤ n.sclkdp) cs) {et : K} (hne : cs ≠ [])
    (hfirst : ∀ f ∈ cs.head?, f.et ≤ et) :
    ∃ ticks, etToSclkdp cs et = some ticks ∧ sclkdpToEt cs ticks = some et := by
  have hse : cs.Pairwise (fun a b => a.et < b.et) := hs.imp (fun h => h.1)
  have hss : cs.Pairwise (fun a b => a.sclkdp < b.sclkdp) := hs.imp (fun h => h.2)
  obtain ⟨c, hc⟩ := partLoop_some (key := Coef.et) cs et hne
  obtain ⟨pre, post, rfl, h1, h2⟩ := partLoop_spec hse hfirst hc
  have hrc := hr c (by simp)
  have hx : c.sclkdp ≤ c.sclkdp + (et - c.et) * c.rate := by
    have : 0 ≤ (et - c.et) * c.rate := mul_nonneg (by linarith) hrc.le
    linarith
  have hn : ∀ n ∈ post.head?, c.sclkdp + (et - c.et) * c.rate < n.sclkdp := by
    intro n hn
    cases post with
    | nil => simp at hn
    | cons m post =>
      simp only [List.head?_cons, Option.mem_def, Option.some.injEq] at hn
      subst hn
      have hlt := h2 m (by simp)
      have hle := neighbours_at hcont
      have : (et - c.et) * c.rate < (m.et - c.et) * c.rate := mul_lt_mul_of_pos_right (by linarith) hrc
      unfold ticksAt at hle
      linarith
  refine ⟨c.sclkdp + (et - c.et) * c.rate, ?_, ?_⟩
  · unfold etToSclkdp
    rw [partitionFor_of h1 h2 hse]
    rfl
  · unfold sclkdpToEt
    rw [partitionFor_of hx hn hss]
    simp only [Option.map_some, Option.some.injEq]
    field_simp
    ring

/-- Ticks to ephemeris time and back is the identity, when no partition ends before the next starts. -/
theorem ticks_roundtrip {cs : List (Coef K)} (hs : Increasing cs) (hr : ∀ c ∈ cs, 0 < c.rate)
    (hcont : Neighbours (fun c n => n.sclkdp ≤ ticksAt c n) cs) {ticks : K} (hne : cs ≠ [])
    (hfirst : ∀ f ∈ cs.head?, f.sclkdp ≤ ticks) :
    ∃ et, sclkdpToEt cs ticks = some et ∧ etToSclkdp cs et = some ticks := by
  have hse : cs.Pairwise (fun a b => a.et < b.et) := hs.imp (fun h => h.1)
  have hss : cs.Pairwise (fun a b => a.sclkdp < b.sclkdp) := hs.imp (fun h => h.2)
  obtain ⟨c, hc⟩ := partLoop_some (key := Coef.sclkdp) cs ticks hne
  obtain ⟨pre, post, rfl, h1, h2⟩ := partLoop_spec hss hfirst hc
  have hrc := hr c (by simp)
  have hx : c.et ≤ c.et + (ticks - c.sclkdp) / c.rate := by
    have : 0 ≤ (ticks - c.sclkdp) / c.rate := div_nonneg (by linarith) hrc.le
    linarith
  have hn : ∀ n ∈ post.head?, c.et + (ticks - c.sclkdp) / c.rate < n.et := by
    intro n hn
    cases post with
    | nil => simp at hn
    | cons m post =>
      simp only [List.head?_cons, Option.mem_def, Option.some.injEq] at hn
      subst hn
      have hlt := h2 m (by simp)
      have hle := neighbours_at hcont
      unfold ticksAt at hle
      have : (ticks - c.sclkdp) / c.rate < m.et - c.et := by
        rw [div_lt_iff₀ hrc]
        linarith
      linarith
  refine ⟨c.et + (ticks - c.sclkdp) / c.rate, ?_, ?_⟩
  · unfold sclkdpToEt
    rw [partitionFor_of h1 h2 hss]
    rfl
  · unfold etToSclkdp
    rw [partitionFor_of hx hn hse]
    simp only [Option.map_some, Option.some.injEq]
    field_simp
    ring

/-- Times before the first entry are refused. -/
theorem before_clock_refused (f : Coef K) (rest : List (Coef K)) (x : K) :
    (x < f.et → etToSclkdp (f :: rest) x = none) ∧ (x < f.sclkdp → sclkdpToEt (f :: rest) x = none) := by
  constructor
  · intro h
    simp [etToSclkdp, partitionFor, h]
  · intro h
    simp [sclkdpToEt, partitionFor, h]

end sclk

/-- A continuous table of two partitions. -/
def demoClock : List (Coef ℚ) := [⟨0, 0, 10⟩, ⟨50, 5, 20⟩, ⟨250, 15, 5⟩]
example : Increasing demoClock := by unfold Increasing; decide +kernel
example : Neighbours (fun c n => ticksAt c n = n.sclkdp) demoClock := by
  simp only [Neighbours, demoClock, ticksAt]; norm_num
example : etToSclkdp demoClock 7 = some 90 ∧ sclkdpToEt demoClock 90 = some 7 := by decide +kernel

/-- Continuity is needed: with a partition that runs past the start of the next, the ticks of one instant
are read back as another. -/
theorem overlapping_clock_not_inverted :
    etToSclkdp ([⟨0, 0, 10⟩, ⟨50, 10, 1⟩] : List (Coef ℚ)) 8 = some 80 ∧
    sclkdpToEt ([⟨0, 0, 10⟩, ⟨50, 10, 1⟩] : List (Coef ℚ)) 80 = some 40 := by decide +kernel

end Verif.TextKernel.Props
