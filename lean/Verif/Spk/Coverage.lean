import Verif.Spk.Props
import Mathlib.Order.Bounds.Basic

/-!
The window that an out-of-coverage error names: `coverage_for` (/repo/src/formats/spice/kernel.rs 333-351) and its use
at 278-291. `none` for a bound not yet set stands for the infinity the loop starts from; a missing result becomes the
pair of NaNs.
-/
namespace Verif.Spk.Coverage
open Verif.Spk Verif.Spk.Spec

variable {T V : Type} [LinearOrder T]

/-- kernel.rs 338-345: one segment. -/
def widen (target center : Int) (acc : Option (T × T)) (s : Seg T V) : Option (T × T) :=
  if (s.target = target ∧ s.center = center) ∨ (s.target = center ∧ s.center = target) then
    match acc with
    | none => some (s.start, s.stop)
    | some (a, b) => some (max a s.start, min b s.stop)
  else acc

/-- `coverage_for` (kernel.rs 333-351). -/
def coverageFor (segs : List (Seg T V)) (target center : Int) : Option (T × T) :=
  segs.foldl (widen target center) none

/-- The payload of the error (kernel.rs 275-291): outer `none` when no such error is returned, inner `none` for NaN. -/
def reported (segs : List (Seg T V)) (target center : Int) (e : T) : Option (Option (T × T)) :=
  match findChain segs target center e with
  | some (.error .outOfCoverage) => some (coverageFor segs target center)
  | _ => none

theorem joins_iff (s : Seg T V) (t c : Int) :
    ((s.target = t ∧ s.center = c) ∨ (s.target = c ∧ s.center = t)) ↔ Joins s t c := by
  unfold Joins
  constructor <;> rintro (h | ⟨h1, h2⟩)
  · exact .inl h
  · exact .inr ⟨h2, h1⟩
  · exact .inl h
  · exact .inr ⟨h2, h1⟩

/-- What the loop has after the segments `done`. -/
def Right (done : List (Seg T V)) (t c : Int) : Option (T × T) → Prop
  | none => ∀ s ∈ done, ¬ Joins s t c
  | some (a, b) => IsGreatest {x | ∃ s ∈ done, Joins s t c ∧ x = s.start} a ∧
      IsLeast {x | ∃ s ∈ done, Joins s t c ∧ x = s.stop} b

theorem widen_right (done : List (Seg T V)) (t c : Int) (acc : Option (T × T)) (s : Seg T V)
    (h : Right done t c acc) : Right (done ++ [s]) t c (widen t c acc s) := by
  unfold widen
  by_cases hj : Joins s t c
  · rw [if_pos ((joins_iff s t c).mpr hj)]
    match acc, h with
    | none, h =>
      refine ⟨⟨⟨s, by simp, hj, rfl⟩, ?_⟩, ⟨⟨s, by simp, hj, rfl⟩, ?_⟩⟩
      all_goals
        rintro x ⟨r, hr, hjr, rfl⟩
        rcases List.mem_append.mp hr with hr | hr
        · exact absurd hjr (h r hr)
        · rw [List.mem_singleton.mp hr]
    | some (a, b), ⟨⟨⟨p, hp, hpj, ha⟩, hau⟩, ⟨q, hq, hqj, hb⟩, hbl⟩ =>
      refine ⟨⟨?_, ?_⟩, ⟨?_, ?_⟩⟩
      · rcases max_choice a s.start with h | h
        · exact ⟨p, by simp [hp], hpj, by rw [h, ha]⟩
        · exact ⟨s, by simp, hj, h⟩
      · rintro x ⟨r, hr, hjr, rfl⟩
        rcases List.mem_append.mp hr with hr | hr
        · exact (hau ⟨r, hr, hjr, rfl⟩).trans (le_max_left _ _)
        · rw [List.mem_singleton.mp hr]; exact le_max_right _ _
      · rcases min_choice b s.stop with h | h
        · exact ⟨q, by simp [hq], hqj, by rw [h, hb]⟩
        · exact ⟨s, by simp, hj, h⟩
      · rintro x ⟨r, hr, hjr, rfl⟩
        rcases List.mem_append.mp hr with hr | hr
        · exact (min_le_left _ _).trans (hbl ⟨r, hr, hjr, rfl⟩)
        · rw [List.mem_singleton.mp hr]; exact min_le_right _ _
  · rw [if_neg (fun h => hj ((joins_iff s t c).mp h))]
    have hm : ∀ r, (r ∈ done ++ [s] ∧ Joins r t c) ↔ (r ∈ done ∧ Joins r t c) := by
      intro r
      simp only [List.mem_append, List.mem_singleton]
      constructor
      · rintro ⟨h | rfl, hr⟩
        · exact ⟨h, hr⟩
        · exact absurd hr hj
      · rintro ⟨h, hr⟩; exact ⟨.inl h, hr⟩
    match acc, h with
    | none, h => exact fun r hr hjr => h r ((hm r).mp ⟨hr, hjr⟩).1 hjr
    | some (a, b), ⟨h1, h2⟩ =>
      have e1 : ∀ g : Seg T V → T, {x | ∃ r ∈ done ++ [s], Joins r t c ∧ x = g r} =
          {x | ∃ r ∈ done, Joins r t c ∧ x = g r} := by
        intro g
        ext x
        constructor
        · rintro ⟨r, hr, hjr, hx⟩; exact ⟨r, ((hm r).mp ⟨hr, hjr⟩).1, hjr, hx⟩
        · rintro ⟨r, hr, hjr, hx⟩; exact ⟨r, ((hm r).mpr ⟨hr, hjr⟩).1, hjr, hx⟩
      unfold Right
      rw [e1, e1]
      exact ⟨h1, h2⟩

theorem fold_right (t c : Int) : ∀ (rest done : List (Seg T V)) (acc : Option (T × T)), Right done t c acc →
    Right (done ++ rest) t c (rest.foldl (widen t c) acc)
  | [], done, acc, h => by simpa using h
  | s :: rest, done, acc, h => by
    have := fold_right t c rest (done ++ [s]) _ (widen_right done t c acc s h)
    simpa using this

/-- C217: the window is the latest start and the earliest end among the segments that link the two bodies directly,
and there is none when no segment does. -/
theorem coverage_exact (segs : List (Seg T V)) (t c : Int) :
    match coverageFor segs t c with
    | none => ∀ s ∈ segs, ¬ Joins s t c
    | some (a, b) => IsGreatest {x | ∃ s ∈ segs, Joins s t c ∧ x = s.start} a ∧
        IsLeast {x | ∃ s ∈ segs, Joins s t c ∧ x = s.stop} b := by
  have h := fold_right t c segs [] none (by simp [Right])
  unfold coverageFor
  simp only [List.nil_append] at h
  generalize segs.foldl (widen t c) none = r at h
  match r, h with
  | none, h => exact h
  | some (a, b), h => exact h

/-- C217: an out-of-coverage error never names a window that contains the requested epoch. -/
theorem window_excludes (segs : List (Seg T V)) (t c : Int) (e a b : T)
    (h : reported segs t c e = some (some (a, b))) : ¬ (a ≤ e ∧ e ≤ b) := by
  unfold reported at h
  split at h
  · rename_i hf
    have hc : coverageFor segs t c = some (a, b) := by injection h
    have hx := coverage_exact segs t c
    rw [hc] at hx
    obtain ⟨⟨⟨s, hs, hj, _⟩, hup⟩, _, hlo⟩ := hx
    have hn := ((Verif.Spk.Props.out_of_coverage_iff segs t c e).mp hf).1
    rintro ⟨h1, h2⟩
    refine hn (Relation.ReflTransGen.single ⟨s, hs, ⟨?_, ?_⟩, hj⟩)
    · exact (hup ⟨s, hs, hj, rfl⟩).trans h1
    · exact h2.trans (hlo ⟨s, hs, hj, rfl⟩)
  · cases h

/-- C217: with a single segment between the two bodies the window is that of the segment. -/
theorem window_single (segs : List (Seg T V)) (t c : Int) (s : Seg T V) (hs : s ∈ segs) (hj : Joins s t c)
    (hu : ∀ r ∈ segs, Joins r t c → r.start = s.start ∧ r.stop = s.stop) :
    coverageFor segs t c = some (s.start, s.stop) := by
  have hx := coverage_exact segs t c
  match hc : coverageFor segs t c, hx with
  | none, hx => exact absurd hj (hx s hs)
  | some (a, b), ⟨⟨⟨p, hp, hpj, ha⟩, _⟩, ⟨q, hq, hqj, hb⟩, _⟩ =>
    rw [ha, hb, (hu p hp hpj).1, (hu q hq hqj).2]

/-- Two segments for the same pair, one after the other. -/
def parts : List (Seg Int Int) := [⟨399, 0, 0, 10, some fun _ => .ok 7⟩, ⟨399, 0, 20, 30, some fun _ => .ok 8⟩]

example : reported ([⟨399, 0, 0, 10, some fun _ => .ok 7⟩] : List (Seg Int Int)) 399 0 15 = some (some (0, 10)) := by
  decide +kernel

/-- C217, finding: with several segments for a pair the named window is their intersection, not what is covered. Here
the error for epoch 15 names the window from 20 to 10, although epochs 5 and 25 are answered. -/
theorem window_not_coverage :
    reported parts 399 0 15 = some (some (20, 10)) ∧ state parts 399 0 5 = some (.ok 7) ∧
      state parts 399 0 25 = some (.ok 8) := by
  refine ⟨?_, ?_, ?_⟩ <;> decide +kernel

/-- C217, finding: for bodies linked only through a third one the error names no window (NaN), although both links
have one in common. -/
theorem window_missing :
    reported ([⟨399, 3, 0, 10, some fun _ => .ok 7⟩, ⟨3, 0, 0, 10, some fun _ => .ok 8⟩] : List (Seg Int Int)) 399 0 15 =
      some none := by decide +kernel

end Verif.Spk.Coverage
