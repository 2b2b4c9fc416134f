import Mathlib.Algebra.Module.LinearMap.Basic
import Mathlib.Algebra.Module.Rat
import Mathlib.Data.Rat.Cast.Order
import Mathlib.Tactic.FieldSimp
import Mathlib.Tactic.Ring
import Mathlib.Tactic.Module
import Mathlib.Tactic.NormNum
import Mathlib.Tactic.Linarith
import Verif.Spk.Lemmas

/-
Properties C30 to C34: state queries over SPK kernels.
-/
namespace Verif.Spk.Props
open Spec

/-- A segment with a constant state, for examples. -/
def constSeg (t c : Int) (a b : Int) (x : Int) : Seg Int Int := ⟨t, c, a, b, some (fun _ => .ok x)⟩

/-- A small kernel: Earth (399) and Moon (301) on the Earth-Moon barycenter (3), that and Mars (4) on
the solar-system barycenter. -/
def demo : List (Seg Int Int) :=
  [constSeg 3 0 0 100 1000, constSeg 399 3 0 100 (-5), constSeg 301 3 0 50 400, constSeg 4 0 0 100 2000]

/-! ### C30 -/

section single
variable {T V : Type} [LinearOrder T] [AddCommGroup V]

/-- A query always finishes. -/
theorem state_finishes (segs : List (Seg T V)) (t c : Int) (e : T) : ∃ r, state segs t c e = some r := by
  unfold state
  split
  · exact ⟨_, rfl⟩
  · rcases findChain_spec segs t c e with ⟨_, ls, h, _⟩ | ⟨_, _, h⟩ | ⟨_, h⟩ <;> rw [h] <;> exact ⟨_, rfl⟩

/-- A query never panics (unless evaluating a segment does). -/
theorem state_never_panics (segs : List (Seg T V)) (t c : Int) (e : T)
    (hp : ∀ s ∈ segs, ∀ f, s.eval = some f → f e ≠ .error .panic) :
    state segs t c e ≠ some (.error .panic) := by
  unfold state
  split
  · simp
  · rcases findChain_spec segs t c e with ⟨_, ls, h, p⟩ | ⟨_, _, h⟩ | ⟨_, h⟩
    · rw [h]
      simpa using sumPath_no_panic hp p 0
    · rw [h]; simp
    · rw [h]; simp

/-- Every answer is the signed sum of segment states along a chain of segments that all cover the
epoch. -/
theorem state_sound {segs : List (Seg T V)} {t c : Int} {e : T} {v : V}
    (h : state segs t c e = some (.ok v)) : ChainSum segs e t c v := by
  unfold state at h
  split at h
  · rename_i htc
    simp only [Option.some.injEq, Except.ok.injEq] at h
    subst htc h
    exact .nil t
  · rcases findChain_spec segs t c e with ⟨_, ls, hf, p⟩ | ⟨_, _, hf⟩ | ⟨_, hf⟩
    · rw [hf] at h
      simp only [Option.some.injEq] at h
      obtain ⟨d, hd, hv⟩ := sumPath_sound p h
      rw [zero_add] at hv
      rw [hv]
      exact hd
    · rw [hf] at h; simp at h
    · rw [hf] at h; simp at h

end single

/-- Moon relative to Mars, over the Earth-Moon barycenter and the solar-system barycenter. -/
example : state demo 301 4 20 = some (.ok (-600)) := by decide +kernel

/-! ### C31 -/

section single
variable {T V : Type} [LinearOrder T]

/-- The chain search finds a chain exactly when one exists at the epoch. -/
theorem chain_found_iff (segs : List (Seg T V)) (t c : Int) (e : T) :
    (∃ ls, findChain segs t c e = some (.ok ls)) ↔ Linked segs e t c := by
  rcases findChain_spec segs t c e with ⟨h, ls, hf, _⟩ | ⟨h, _, hf⟩ | ⟨h, hf⟩
  · exact ⟨fun _ => h, fun _ => ⟨ls, hf⟩⟩
  · exact ⟨fun ⟨ls, h'⟩ => by rw [hf] at h'; simp at h', fun h' => absurd h' h⟩
  · refine ⟨fun ⟨ls, h'⟩ => by rw [hf] at h'; simp at h', fun h' => absurd ?_ h⟩
    exact Relation.ReflTransGen.mono
      (show ∀ a b, Adj segs e a b → ∃ s ∈ segs, Joins s a b from fun a b ⟨s, hs, _, hj⟩ => ⟨s, hs, hj⟩)
      _ _ h'

/-- "No chain" is reported exactly when no chain exists whatever the coverage. -/
theorem no_chain_iff (segs : List (Seg T V)) (t c : Int) (e : T) :
    findChain segs t c e = some (.error .noChain) ↔ ¬ LinkedAny segs t c := by
  rcases findChain_spec segs t c e with ⟨h, ls, hf, _⟩ | ⟨h, h', hf⟩ | ⟨h, hf⟩
  · rw [hf]
    simp only [Option.some.injEq, reduceCtorEq, false_iff, not_not]
    exact Relation.ReflTransGen.mono
      (show ∀ a b, Adj segs e a b → ∃ s ∈ segs, Joins s a b from fun a b ⟨s, hs, _, hj⟩ => ⟨s, hs, hj⟩)
      _ _ h
  · rw [hf]; simp [h']
  · rw [hf]; simp [h]

/-- "Out of coverage" is reported exactly when a chain exists if coverage is ignored, and none at the
epoch. -/
theorem out_of_coverage_iff (segs : List (Seg T V)) (t c : Int) (e : T) :
    findChain segs t c e = some (.error .outOfCoverage) ↔ ¬ Linked segs e t c ∧ LinkedAny segs t c := by
  rcases findChain_spec segs t c e with ⟨h, ls, hf, _⟩ | ⟨h, h', hf⟩ | ⟨h, hf⟩
  · rw [hf]; simp [h]
  · rw [hf]; simp [h, h']
  · rw [hf]; simp [h]

/-- If a chain exists at some epoch, but not at this one, the error is "out of coverage". -/
theorem covered_elsewhere (segs : List (Seg T V)) (t c : Int) (e e' : T) (h : Linked segs e' t c)
    (hn : ¬ Linked segs e t c) : findChain segs t c e = some (.error .outOfCoverage) := by
  rw [out_of_coverage_iff]
  refine ⟨hn, ?_⟩
  exact Relation.ReflTransGen.mono
    (show ∀ a b, Adj segs e' a b → ∃ s ∈ segs, Joins s a b from fun a b ⟨s, hs, _, hj⟩ => ⟨s, hs, hj⟩)
    _ _ h

/-- Evaluable kernels: the state query succeeds exactly when a chain exists. -/
theorem state_ok_iff [AddCommGroup V] {segs : List (Seg T V)} {e : T} (hev : Evaluable segs e) (t c : Int) :
    (∃ v, state segs t c e = some (.ok v)) ↔ Linked segs e t c := by
  unfold state
  split
  · rename_i htc
    subst htc
    exact ⟨fun _ => .refl, fun _ => ⟨0, rfl⟩⟩
  · rcases findChain_spec segs t c e with ⟨h, ls, hf, p⟩ | ⟨h, _, hf⟩ | ⟨h, hf⟩
    · rw [hf]
      obtain ⟨v, hv⟩ := sumPath_total hev p 0
      exact ⟨fun _ => h, fun _ => ⟨v, by rw [← hv]⟩⟩
    · rw [hf]; simp [h]
    · have := (chain_found_iff segs t c e).not.mp (by rw [hf]; simp)
      rw [hf]; simp [this]

end single

example : findChain demo 301 4 20 = some (.ok [(2, true), (0, true), (3, false)]) := by decide +kernel
example : findChain demo 301 4 60 = some (.error .outOfCoverage) := by decide +kernel
example : findChain demo 301 5 60 = some (.error .noChain) := by decide +kernel

/-- Two segments that never cover the same epoch. -/
def disjoint : List (Seg Int Int) := [constSeg 399 3 0 10 7, constSeg 3 0 20 30 11]

/-- Disagreement with the claim: "out of coverage" is also reported when no epoch has a chain. -/
theorem out_of_coverage_without_any_epoch :
    findChain disjoint 399 0 5 = some (.error .outOfCoverage) ∧ ∀ e, ¬ Linked disjoint e 399 0 := by
  refine ⟨by decide +kernel, ?_⟩
  intro e h
  have key : ∀ n, Linked disjoint e 399 n → (e ≤ 10 → n = 399 ∨ n = 3) ∧ (10 < e → n = 399) := by
    intro n hn
    unfold Linked at hn
    induction hn with
    | refl => simp
    | tail _ hab ih =>
      obtain ⟨s, hs, hc, hj⟩ := hab
      simp only [disjoint, constSeg, List.mem_cons, List.not_mem_nil, or_false] at hs
      unfold Covers at hc
      unfold Joins at hj
      rcases hs with rfl | rfl <;> simp only at hc hj <;> constructor <;> intro he <;> have ih1 := ih.1 <;>
        have ih2 := ih.2 <;> omega
  have := key 0 h
  omega

/-- Two routes from 399 to 0; the one found first uses a segment of an unsupported type. -/
def shadowed : List (Seg Int Int) :=
  [⟨399, 3, 0, 10, none⟩, constSeg 399 3 0 10 7, constSeg 3 0 0 10 11]

/-- Disagreement: a state can be refused although a chain of supported covering segments exists. -/
theorem unsupported_segment_shadows_supported :
    state shadowed 399 0 5 = some (.error .unsupported) ∧ ChainSum shadowed (5 : Int) 399 0 18 := by
  refine ⟨by decide +kernel, ?_⟩
  have h1 : ChainSum shadowed (5 : Int) 3 0 (11 + 0) :=
    .forward (s := constSeg 3 0 0 10 11) (by simp [shadowed]) (by simp [Covers, constSeg]) rfl rfl (.nil 0)
  exact ChainSum.forward (s := constSeg 399 3 0 10 7) (by simp [shadowed]) (by simp [Covers, constSeg]) rfl rfl h1

/-! ### C32 -/

section single
variable {T V : Type} [LinearOrder T] [AddCommGroup V]

/-- On a consistent kernel every answer is target position minus center position. -/
theorem state_is_difference {segs : List (Seg T V)} {e : T} {pos : Int → V} (hc : Consistent segs e pos)
    {t c : Int} {v : V} (h : state segs t c e = some (.ok v)) : v = pos t - pos c :=
  Verif.Spk.ChainSum.consistent hc (state_sound h)

/-- The swapped query has an answer too, and it is the negative. -/
theorem state_swap {segs : List (Seg T V)} {e : T} {pos : Int → V} (hc : Consistent segs e pos)
    (hev : Evaluable segs e) {t c : Int} {v : V} (h : state segs t c e = some (.ok v)) :
    state segs c t e = some (.ok (-v)) := by
  obtain ⟨w, hw⟩ := (state_ok_iff hev c t).mpr (linked_symm ((state_ok_iff hev t c).mp ⟨v, h⟩))
  rw [hw, state_is_difference hc hw, state_is_difference hc h]
  simp

/-- Answers add along intermediate bodies. -/
theorem state_triangle {segs : List (Seg T V)} {e : T} {pos : Int → V} (hc : Consistent segs e pos)
    (hev : Evaluable segs e) {a b c : Int} {v w : V} (h1 : state segs a b e = some (.ok v))
    (h2 : state segs b c e = some (.ok w)) : state segs a c e = some (.ok (v + w)) := by
  obtain ⟨u, hu⟩ := (state_ok_iff hev a c).mpr
    (Relation.ReflTransGen.trans ((state_ok_iff hev a b).mp ⟨v, h1⟩) ((state_ok_iff hev b c).mp ⟨w, h2⟩))
  rw [hu, state_is_difference hc hu, state_is_difference hc h1, state_is_difference hc h2]
  simp

/-- A body relative to itself is at rest in the origin, for any kernel. -/
theorem state_self (segs : List (Seg T V)) (t : Int) (e : T) : state segs t t e = some (.ok 0) := by
  simp [state]

end single

/-- The demo kernel is consistent. -/
example : Consistent demo (20 : Int)
    (fun n => if n = 3 then 1000 else if n = 399 then 995 else if n = 301 then 1400 else if n = 4 then 2000 else 0) := by
  intro s hs _ f hf x hx
  simp only [demo, List.mem_cons, List.not_mem_nil, or_false] at hs
  rcases hs with rfl | rfl | rfl | rfl <;> simp only [constSeg, Option.some.injEq] at hf <;> subst hf <;>
    simp only [Except.ok.injEq] at hx <;> subst hx <;> decide
example : state demo 4 301 20 = some (.ok 600) := by decide +kernel

/-! ### The resolver of `SpkKernelSet` -/

section ssb
variable {T V K : Type} [LinearOrder T] [Field K] [AddCommGroup V] [Module K V]

theorem edge_serves {segs : List (KSeg T V)} {t c : Int} {e : T} {v : V}
    (h : edgePosition segs t c e = .ok v) : ∃ s ∈ segs, s.target = t ∧ s.center = c ∧ Serves e s v := by
  obtain ⟨pre, s, post, hl, hs, _⟩ := edgeLoop_ok h
  have : s ∈ segs.reverse.filter (fun s => s.target = t ∧ s.center = c) := by rw [hl]; simp
  rw [List.mem_filter] at this
  simp only [List.mem_reverse, decide_eq_true_eq] at this
  exact ⟨s, this.1, this.2.1, this.2.2, hs⟩

/-- Every resolved position is a sum along a chain of segments that serve the epoch. -/
theorem fromSsb_sound {segs : List (KSeg T V)} {e : T} : ∀ {n : Nat} {t : Int} {vis : List Int} {v : V},
    fromSsb K segs e n t vis = some (.ok v) → ToSsb K (earthMoonRatio K) segs e t v
  | 0, _, _, _, h => by simp [fromSsb] at h
  | n + 1, t, vis, v, h => by
    unfold fromSsb at h
    split at h
    · rename_i ht
      simp only [Option.some.injEq, Except.ok.injEq] at h
      subst ht h
      exact .ssb
    · split at h
      · simp at h
      · dsimp only at h
        split at h
        · simp at h
        · rename_i r hl
          simp only [Option.some.injEq] at h
          subst h
          obtain ⟨pre, s, post, x, c, hsplit, hs, hrec, hv, _⟩ := ssbLoop_ok hl
          have hm : s ∈ segs.reverse.filter (fun s => s.target = t) := by rw [hsplit]; simp
          rw [List.mem_filter] at hm
          simp only [List.mem_reverse, decide_eq_true_eq] at hm
          obtain ⟨hm, rfl⟩ := hm
          rw [hv]
          exact .segment hm hs (fromSsb_sound hrec)
        · split at h
          · rename_i ht
            subst ht
            split at h
            · simp at h
            · simp at h
            · rename_i emb hemb
              split at h
              · rename_i moon hmoon
                simp only [Option.some.injEq, Except.ok.injEq] at h
                rw [← h]
                obtain ⟨s, hm, h1, h2, h3⟩ := edge_serves hmoon
                exact .earth hm h1 h2 h3 (fromSsb_sound hemb)
              · simp at h
          · simp at h

theorem ToSsb.consistent {r : K} {segs : List (KSeg T V)} {e : T} {pos : Int → V} (h0 : pos 0 = 0)
    (hc : ConsistentK segs e pos) (hE : pos 399 = pos 3 - (1 / r) • (pos 301 - pos 3)) {t : Int} {v : V}
    (h : ToSsb K r segs e t v) : v = pos t := by
  induction h with
  | ssb => exact h0.symm
  | segment mem ok _ ih => rw [ih, hc _ mem _ ok]; abel
  | earth mem hm hcn ok _ ih => rw [ih, hc _ mem _ ok, hm, hcn, hE]

/-- On a consistent kernel set (in which Earth, Moon and their barycenter are in the mass ratio the code
uses) the geometric state is target position minus observer position. -/
theorem geometric_is_difference {segs : List (KSeg T V)} {e : T} {pos : Int → V} (h0 : pos 0 = 0)
    (hc : ConsistentK segs e pos)
    (hE : pos 399 = pos 3 - (1 / earthMoonRatio K) • (pos 301 - pos 3)) {t o : Int} {v : V}
    (h : geometric K segs t o e = some (.ok v)) : v = pos t - pos o := by
  unfold geometric at h
  split at h
  · simp at h
  · simp at h
  · rename_i a ha
    split at h
    · simp at h
    · simp at h
    · rename_i b hb
      simp only [Option.some.injEq, Except.ok.injEq] at h
      rw [← h, ToSsb.consistent h0 hc hE (fromSsb_sound ha), ToSsb.consistent h0 hc hE (fromSsb_sound hb)]

/-- Swapping target and observer negates, for any kernel set. -/
theorem geometric_swap {segs : List (KSeg T V)} {e : T} {t o : Int} {v : V}
    (h : geometric K segs t o e = some (.ok v)) : geometric K segs o t e = some (.ok (-v)) := by
  unfold geometric at h ⊢
  split at h
  · simp at h
  · simp at h
  · rename_i a ha
    split at h
    · simp at h
    · simp at h
    · rename_i b hb
      simp only [Option.some.injEq, Except.ok.injEq] at h
      rw [← h, neg_sub]

/-- The planet queries too: barycenter or center of a planet relative to Earth. -/
theorem planet_is_difference {segs : List (KSeg T V)} {e : T} {pos : Int → V} (h0 : pos 0 = 0)
    (hc : ConsistentK segs e pos)
    (hE : pos 399 = pos 3 - (1 / earthMoonRatio K) • (pos 301 - pos 3)) {id : Int} {bary : Bool} {v : V}
    (h : planetGeocentric K segs id bary e = some (.ok v)) : v = pos id - pos 399 := by
  unfold planetGeocentric at h
  split at h
  · split at h
    · rename_i w hw
      simp only [Option.some.injEq, Except.ok.injEq] at h
      subst h
      unfold baryFast at hw
      simp only [bind, Except.bind] at hw
      split at hw
      · simp at hw
      · rename_i tp htp
        obtain ⟨s1, m1, t1, c1, v1⟩ := edge_serves htp
        have e1 := hc s1 m1 _ v1
        rw [t1, c1, h0, sub_zero] at e1
        split at hw
        · simp at hw
        · rename_i emb hemb
          obtain ⟨s2, m2, t2, c2, v2⟩ := edge_serves hemb
          have e2 := hc s2 m2 _ v2
          rw [t2, c2, h0, sub_zero] at e2
          split at hw
          · rename_i off hoff
            simp only [Except.ok.injEq] at hw
            obtain ⟨s3, m3, t3, c3, v3⟩ := edge_serves hoff
            have e3 := hc s3 m3 _ v3
            rw [t3, c3] at e3
            rw [← hw, e1, e2, e3]; abel
          · split at hw
            · simp at hw
            · rename_i moon hmoon
              simp only [Except.ok.injEq] at hw
              obtain ⟨s3, m3, t3, c3, v3⟩ := edge_serves hmoon
              have e3 := hc s3 m3 _ v3
              rw [t3, c3] at e3
              rw [← hw, e1, e2, e3, hE]
    · split at h
      · exact geometric_is_difference h0 hc hE h
      · simp at h
  · exact geometric_is_difference h0 hc hE h

/-! Termination of the resolver. -/

theorem filter_lt {U vis : List Int} {t : Int} (hU : t ∈ U) (hv : t ∉ vis) :
    (U.filter (fun x => !(vis ++ [t]).contains x)).length < (U.filter (fun x => !vis.contains x)).length := by
  have hsub : (U.filter (fun x => !(vis ++ [t]).contains x)) =
      (U.filter (fun x => !vis.contains x)).filter (fun x => x != t) := by
    rw [List.filter_filter]
    congr 1
    funext x
    simp [List.contains_eq_mem, bne, Bool.and_comm, Bool.beq_eq_decide_eq]
  rw [hsub]
  apply List.length_filter_lt_length_iff_exists.mpr
  exact ⟨t, by simp [hU, hv], by simp⟩

theorem fromSsb_finishes_aux {segs : List (KSeg T V)} {e : T} : ∀ (n : Nat) (t : Int) (vis : List Int),
    ((399 :: 3 :: segs.map (·.target)).filter (fun x => !vis.contains x)).length < n →
    ∃ r, fromSsb K segs e n t vis = some r
  | 0, _, _, h => by omega
  | n + 1, t, vis, h => by
    unfold fromSsb
    split
    · exact ⟨_, rfl⟩
    · split
      · exact ⟨_, rfl⟩
      · rename_i hv
        dsimp only
        by_cases hU : t ∈ 399 :: 3 :: segs.map (·.target)
        · have hlt := filter_lt hU hv
          have ih : ∀ c, ∃ r, fromSsb K segs e n c (vis ++ [t]) = some r := fun c =>
            fromSsb_finishes_aux n c (vis ++ [t]) (by omega)
          obtain ⟨r, hr⟩ := ssbLoop_finishes (e := e) (rec := fun c => fromSsb K segs e n c (vis ++ [t]))
            (l := segs.reverse.filter (fun s => s.target = t)) (first := none) (fun s _ => ih s.center)
          rw [hr]
          cases r with
          | done r => exact ⟨_, rfl⟩
          | next first =>
            dsimp only
            split
            · obtain ⟨q, hq⟩ := ih 3
              rw [hq]
              cases q with
              | error x => exact ⟨_, rfl⟩
              | ok emb =>
                dsimp only
                split <;> exact ⟨_, rfl⟩
            · exact ⟨_, rfl⟩
        · have hnil : segs.reverse.filter (fun s => s.target = t) = [] := by
            rw [List.filter_eq_nil_iff]
            intro s hs
            simp only [decide_eq_true_eq]
            rintro rfl
            exact hU (by simp only [List.mem_cons, List.mem_map]; exact Or.inr (Or.inr ⟨s, by simpa using hs, rfl⟩))
          rw [hnil]
          have : t ≠ 399 := by rintro rfl; simp at hU
          simp [ssbLoop, this]

/-- The resolver finishes on every kernel set, cyclic ones included. -/
theorem fromSsb_finishes (segs : List (KSeg T V)) (e : T) (t : Int) :
    ∃ r, fromSsb K segs e (ssbFuel segs) t [] = some r := by
  apply fromSsb_finishes_aux
  have := List.length_filter_le (fun x => !([] : List Int).contains x) (399 :: 3 :: segs.map (·.target))
  unfold ssbFuel
  simp only [List.length_cons, List.length_map] at this
  omega

theorem geometric_finishes (segs : List (KSeg T V)) (t o : Int) (e : T) :
    ∃ r, geometric K segs t o e = some r := by
  obtain ⟨a, ha⟩ := fromSsb_finishes (K := K) segs e t
  obtain ⟨b, hb⟩ := fromSsb_finishes (K := K) segs e o
  unfold geometric
  rw [ha]
  cases a with
  | error x => exact ⟨_, rfl⟩
  | ok a =>
    dsimp only
    rw [hb]
    cases b <;> exact ⟨_, rfl⟩

theorem fromSsb_complete_aux {segs : List (KSeg T V)} {e : T}
    (hh : ∀ s ∈ segs, (s.start ≤ e ∧ e ≤ s.stop) → ∀ k, s.pos e = .error k → k = .outOfRange)
    {avoid : List Int} {t : Int} (h : Simple segs e avoid t) : ∀ n,
    ((399 :: 3 :: segs.map (·.target)).filter (fun x => !avoid.contains x)).length < n →
    ∃ v, fromSsb K segs e n t avoid = some (.ok v) := by
  induction h with
  | ssb avoid =>
    intro n hn
    obtain ⟨n, rfl⟩ : ∃ m, n = m + 1 := ⟨n - 1, by omega⟩
    exact ⟨0, by simp [fromSsb]⟩
  | @segment s x avoid mem ok fresh rest ih =>
    intro n hn
    obtain ⟨n, rfl⟩ : ∃ m, n = m + 1 := ⟨n - 1, by omega⟩
    unfold fromSsb
    split
    · exact ⟨_, rfl⟩
    · dsimp only
      have hU : s.target ∈ 399 :: 3 :: segs.map (·.target) := by
        simp only [List.mem_cons, List.mem_map]
        exact Or.inr (Or.inr ⟨s, mem, rfl⟩)
      have hlt := filter_lt hU fresh
      obtain ⟨c, hc⟩ := ih n (by omega)
      obtain ⟨v, hv⟩ := ssbLoop_complete (e := e)
        (rec := fun c => fromSsb K segs e n c (avoid ++ [s.target]))
        (l := segs.reverse.filter (fun q => q.target = s.target)) (first := none)
        (fun q _ => fromSsb_finishes_aux n q.center _ (by omega))
        (fun q hq => hh q (by simpa using (List.mem_filter.mp hq).1))
        ⟨s, by simp [mem], x, ok, c, hc⟩
      rw [hv]
      exact ⟨_, rfl⟩

/-- If a chain of serving segments leads from a body to the barycenter without meeting a body twice, the
resolver has an answer (segments may be out of their range, but none fails otherwise). -/
theorem fromSsb_complete {segs : List (KSeg T V)} {e : T}
    (hh : ∀ s ∈ segs, (s.start ≤ e ∧ e ≤ s.stop) → ∀ k, s.pos e = .error k → k = .outOfRange) {t : Int}
    (h : Simple segs e [] t) : ∃ v, fromSsb K segs e (ssbFuel segs) t [] = some (.ok v) := by
  apply fromSsb_complete_aux hh h
  have := List.length_filter_le (fun x => !([] : List Int).contains x) (399 :: 3 :: segs.map (·.target))
  unfold ssbFuel
  simp only [List.length_cons, List.length_map] at this
  omega

end ssb

/-- A kernel set: barycenter, Moon, two generations of Mars; no Earth segment; and a cycle 7 ↔ 8. -/
def demoSet : List (KSeg Int ℚ) :=
  [⟨3, 0, 0, 100, fun _ => .ok 1000⟩, ⟨301, 3, 0, 100, fun _ => .ok 400⟩, ⟨4, 0, 0, 100, fun _ => .ok 1⟩,
   ⟨4, 0, 0, 50, fun _ => .ok 2000⟩, ⟨7, 8, 0, 100, fun _ => .ok 1⟩, ⟨8, 7, 0, 100, fun _ => .ok 1⟩]

example : geometric ℚ demoSet 4 301 20 = some (.ok 600) := by decide +kernel
example : geometric ℚ demoSet 4 301 60 = some (.ok (-1399)) := by decide +kernel
example : geometric ℚ demoSet 7 0 60 = some (.error .cycle) := by decide +kernel
example : geometric ℚ demoSet 399 0 60 = some (.ok (1000 - 400 / earthMoonRatio ℚ)) := by decide +kernel
example : planetGeocentric ℚ demoSet 4 true 20 = some (.ok (1000 + 400 / earthMoonRatio ℚ)) := by decide +kernel
example : Simple demoSet (20 : Int) [] 301 :=
  .segment (s := ⟨301, 3, 0, 100, fun _ => .ok 400⟩) (x := 400) (by simp [demoSet]) ⟨by simp, rfl⟩ (by simp)
    (.segment (s := ⟨3, 0, 0, 100, fun _ => .ok 1000⟩) (x := 1000) (by simp [demoSet]) ⟨by simp, rfl⟩ (by simp)
      (.ssb _))

/-! ### C33 -/

section order
variable {T V : Type} [LinearOrder T]

/-- `SpkKernelSet`, one pair: the answer is that of the last segment in load order that can serve the
epoch. -/
theorem edge_last_wins {segs : List (KSeg T V)} {t c : Int} {e : T} {v : V}
    (h : edgePosition segs t c e = .ok v) : ∃ pre s post, segs = pre ++ s :: post ∧ s.target = t ∧
      s.center = c ∧ Serves e s v ∧ ∀ q ∈ post, q.target = t → q.center = c → ∀ x, ¬ Serves e q x := by
  obtain ⟨pre, s, post, hl, hs, hpre⟩ := edgeLoop_ok h
  rw [List.filter_eq_append_iff] at hl
  obtain ⟨l1, l2, hl, h1, h2⟩ := hl
  rw [List.filter_eq_cons_iff] at h2
  obtain ⟨l3, l4, h2, h3, h4, h5⟩ := h2
  have hrev : segs = (l1 ++ (l3 ++ s :: l4)).reverse := by rw [← h2, ← hl, List.reverse_reverse]
  simp only [decide_eq_true_eq] at h4
  refine ⟨l4.reverse, s, l3.reverse ++ l1.reverse, by rw [hrev]; simp, h4.1, h4.2, hs, ?_⟩
  intro q hq hqt hqc
  simp only [List.mem_append, List.mem_reverse] at hq
  rcases hq with hq | hq
  · exact absurd (by simp [hqt, hqc]) (h3 q hq)
  · apply hpre q
    rw [← h1, List.mem_filter]
    exact ⟨hq, by simp [hqt, hqc]⟩

/-- `SpkKernelSet`, resolution: the segment used for a body is the last in load order that serves the
epoch and whose center can be resolved. -/
theorem ssb_last_wins {K : Type} [Field K] [AddCommGroup V] [Module K V] {segs : List (KSeg T V)} {t : Int}
    {e : T} {v : V} {n : Nat} {vis : List Int} (h399 : t ≠ 399) (h0 : t ≠ 0)
    (h : fromSsb K segs e (n + 1) t vis = some (.ok v)) :
    ∃ pre s post x c, segs = pre ++ s :: post ∧ s.target = t ∧ Serves e s x ∧
      fromSsb K segs e n s.center (vis ++ [t]) = some (.ok c) ∧ v = c + x ∧
      ∀ q ∈ post, q.target = t → ∀ y, Serves e q y →
        ∃ k, fromSsb K segs e n q.center (vis ++ [t]) = some (.error k) := by
  unfold fromSsb at h
  rw [if_neg h0] at h
  split at h
  · simp at h
  · dsimp only at h
    split at h
    · simp at h
    · rename_i r hl
      simp only [Option.some.injEq] at h
      subst h
      obtain ⟨pre, s, post, x, c, hsplit, hs, hrec, hv, hpre⟩ := ssbLoop_ok hl
      rw [List.filter_eq_append_iff] at hsplit
      obtain ⟨l1, l2, hl, h1, h2⟩ := hsplit
      rw [List.filter_eq_cons_iff] at h2
      obtain ⟨l3, l4, h2, h3, h4, h5⟩ := h2
      have hrev : segs = (l1 ++ (l3 ++ s :: l4)).reverse := by rw [← h2, ← hl, List.reverse_reverse]
      simp only [decide_eq_true_eq] at h4
      refine ⟨l4.reverse, s, l3.reverse ++ l1.reverse, x, c, by rw [hrev]; simp, h4, hs, hrec, hv, ?_⟩
      intro q hq hqt
      simp only [List.mem_append, List.mem_reverse] at hq
      rcases hq with hq | hq
      · exact absurd (by simp [hqt]) (h3 q hq)
      · apply hpre q
        rw [← h1, List.mem_filter]
        exact ⟨hq, by simp [hqt]⟩
    · simp [h399] at h

theorem stateLoop_ok [AddCommGroup V] {t c : Int} {e : T} : ∀ {ks : List (List (Seg T V))} {v : V},
    stateLoop t c e ks = some (.ok v) → ∃ pre k post, ks = pre ++ k :: post ∧
      state k t c e = some (.ok v) ∧
      ∀ q ∈ pre, state q t c e = some (.error .noChain) ∨ state q t c e = some (.error .outOfCoverage)
  | [], v, h => by simp [stateLoop] at h
  | k :: rest, v, h => by
    unfold stateLoop at h
    split at h
    · simp at h
    · rename_i w hw
      simp only [Option.some.injEq, Except.ok.injEq] at h
      subst h
      exact ⟨[], k, rest, rfl, hw, by simp⟩
    · rename_i x hx
      split at h
      · rename_i hxx
        obtain ⟨pre, k', post, rfl, h1, h2⟩ := stateLoop_ok h
        refine ⟨k :: pre, k', post, rfl, h1, ?_⟩
        intro q hq
        rcases List.mem_cons.mp hq with rfl | hq
        · rw [hx]
          rcases hxx with rfl | rfl
          · exact Or.inl rfl
          · exact Or.inr rfl
        · exact h2 q hq
      · simp at h

/-- `KernelSet`: the answer comes from the last loaded kernel that has a chain for the pair at the
epoch. -/
theorem kernel_set_last_wins [AddCommGroup V] {kernels : List (List (Seg T V))} {t c : Int} {e : T} {v : V}
    (h : stateNaif kernels t c e = some (.ok v)) : ∃ pre k post, kernels = pre ++ k :: post ∧
      state k t c e = some (.ok v) ∧ ∀ q ∈ post,
        state q t c e = some (.error .noChain) ∨ state q t c e = some (.error .outOfCoverage) := by
  obtain ⟨pre, k, post, hk, h1, h2⟩ := stateLoop_ok h
  have : kernels = (pre ++ k :: post).reverse := by rw [← hk, List.reverse_reverse]
  refine ⟨post.reverse, k, pre.reverse, by rw [this]; simp, h1, ?_⟩
  intro q hq
  exact h2 q (by simpa using hq)

/-- `KernelSet` of evaluable kernels: a state is returned exactly when one kernel has a chain. -/
theorem kernel_set_ok_iff [AddCommGroup V] {kernels : List (List (Seg T V))} {e : T}
    (hev : ∀ k ∈ kernels, Evaluable k e) (t c : Int) :
    (∃ v, stateNaif kernels t c e = some (.ok v)) ↔ ∃ k ∈ kernels, Linked k e t c := by
  constructor
  · rintro ⟨v, h⟩
    obtain ⟨pre, k, post, rfl, h1, _⟩ := kernel_set_last_wins h
    exact ⟨k, by simp, (state_ok_iff (hev k (by simp)) t c).mp ⟨v, h1⟩⟩
  · rintro ⟨k, hk, hl⟩
    have key : ∀ ks : List (List (Seg T V)), (∀ k ∈ ks, Evaluable k e) → k ∈ ks →
        ∃ v, stateLoop t c e ks = some (.ok v) := by
      intro ks
      induction ks with
      | nil => intro _ h; simp at h
      | cons q rest ih =>
        intro hq hm
        unfold stateLoop
        by_cases hlq : Linked q e t c
        · obtain ⟨v, hv⟩ := (state_ok_iff (hq q (by simp)) t c).mpr hlq
          rw [hv]
          exact ⟨v, rfl⟩
        · have htc : t ≠ c := by rintro rfl; exact hlq .refl
          have hrest : k ∈ rest := by
            rcases List.mem_cons.mp hm with rfl | h
            · exact absurd hl hlq
            · exact h
          obtain ⟨v, hv⟩ := ih (fun k hk => hq k (by simp [hk])) hrest
          have hs : state q t c e = some (.error .outOfCoverage) ∨ state q t c e = some (.error .noChain) := by
            unfold state
            rw [if_neg htc]
            rcases findChain_spec q t c e with ⟨h, _⟩ | ⟨_, _, hf⟩ | ⟨_, hf⟩
            · exact absurd h hlq
            · rw [hf]; exact Or.inl rfl
            · rw [hf]; exact Or.inr rfl
          rcases hs with hs | hs <;> rw [hs] <;> exact ⟨v, by simpa using hv⟩
    exact key kernels.reverse (fun k hk => hev k (by simpa using hk)) (by simpa using hk)

end order

example : edgePosition demoSet 4 0 20 = .ok 2000 := by decide +kernel
example : stateNaif [demo, [constSeg 3 0 0 10 1, constSeg 399 3 0 10 1]] 399 0 5 = some (.ok 2) := by decide +kernel
example : stateNaif [demo, [constSeg 3 0 0 10 1, constSeg 399 3 0 10 1]] 399 0 15 = some (.ok 995) := by decide +kernel

/-- Disagreement: inside one file `SpkKernel` takes the first covering segment of a pair, not the last. -/
theorem kernel_first_in_file_wins :
    state [constSeg 399 3 0 10 1, constSeg 399 3 0 10 2] 399 3 5 = some (.ok 1) := by decide +kernel

/-- The other resolver of the same library takes the last for the same data. -/
theorem kernel_set_last_in_file_wins :
    edgePosition [(⟨399, 3, 0, 10, fun _ => .ok 1⟩ : KSeg Int Int), ⟨399, 3, 0, 10, fun _ => .ok 2⟩] 399 3 5 = .ok 2 := by
  decide +kernel

/-- Disagreement: `KernelSet` never chains across kernels, so loading the two halves of a chain from two
files gives "no chain", while one file with both gives the state. -/
theorem kernel_set_does_not_chain_across_files :
    stateNaif [[constSeg 399 3 0 10 7], [constSeg 3 0 0 10 11]] 399 0 5 = some (.error .noChain) ∧
    stateNaif [[constSeg 399 3 0 10 7, constSeg 3 0 0 10 11]] 399 0 5 = some (.ok 18) := by decide +kernel

/-! ### C34 -/

section bodies
variable {K V : Type} [Field K] [AddCommGroup V] [Module K V]

/-- Without an Earth segment: the mass-weighted mean of Earth and Moon is the barycenter; `r` is the mass
of the Earth in Moon masses. -/
theorem mass_weighted_mean {r : K} (hr : r ≠ 0) (hr1 : r + 1 ≠ 0) (out : V →ₗ[K] V) {s : Stacks V}
    (hs : s.earth = none) {emb earth moonRel : V} (he : s.emb = .ok emb)
    (h1 : earthBary r out s = .ok earth) (h2 : moonGeocentric r out s = .ok moonRel) :
    (r / (r + 1)) • earth + (1 / (r + 1)) • (earth + moonRel) = out emb := by
  unfold earthBary at h1
  unfold moonGeocentric at h2
  rw [hs] at h1 h2
  simp only [he, bind, Except.bind] at h1 h2
  rcases hm : s.moon with k | moon
  · rw [hm] at h1; simp at h1
  · rw [hm] at h1 h2
    simp only [Except.ok.injEq] at h1 h2
    subst h1 h2
    simp only [map_sub, map_smul, earthOffset, moonGeo, fracEarth]
    have hk : (r / (r + 1)) + (1 / (r + 1)) = 1 := by field_simp
    have hm' : (1 / (r + 1)) * (1 / (r / (r + 1))) = 1 / r := by field_simp
    rw [smul_add, ← add_assoc, ← add_smul, hk, one_smul, smul_smul, hm']
    abel

/-- The geocentric Moon is the barycentric Moon minus the barycentric Earth; the barycentric Moon is the
barycenter plus the Moon segment. -/
theorem moon_is_difference {r : K} (hr : r ≠ 0) (hr1 : r + 1 ≠ 0) (out : V →ₗ[K] V) {s : Stacks V}
    {emb moon earth moonRel : V} (he : s.emb = .ok emb) (hm : s.moon = .ok moon)
    (h1 : earthBary r out s = .ok earth) (h2 : moonGeocentric r out s = .ok moonRel) :
    moonRel = out (emb + moon) - earth := by
  unfold earthBary at h1
  unfold moonGeocentric at h2
  cases hs : s.earth with
  | none =>
    rw [hs] at h1 h2
    simp only [he, hm, bind, Except.bind, Except.ok.injEq] at h1 h2
    subst h1 h2
    have : (1 / (r / (r + 1))) = 1 + 1 / r := by field_simp
    simp only [map_add, map_sub, map_smul, earthOffset, moonGeo, fracEarth, this, add_smul, one_smul]
    abel
  | some o =>
    rw [hs] at h1 h2
    cases o with
    | error k => simp [he, bind, Except.bind] at h1
    | ok off =>
      simp only [he, hm, bind, Except.bind, Except.ok.injEq] at h1 h2
      subst h1 h2
      simp only [map_add, map_sub]
      abel

/-- Heliocentric is barycentric minus the Sun, and needs nothing else. -/
theorem heliocentric_is_difference (r : K) (out : V →ₗ[K] V) {s : Stacks V} {earth sun : V}
    (h1 : earthBary r out s = .ok earth) (h2 : sunBary out s = .ok sun) :
    earthHelio r out s = .ok (earth - sun) := by
  unfold earthBary at h1
  unfold sunBary at h2
  unfold earthHelio
  rcases hsun : s.sun with k | su
  · rw [hsun] at h2; simp [bind, Except.bind] at h2
  · rw [hsun] at h2
    simp only [bind, Except.bind, Except.ok.injEq] at h2
    subst h2
    rcases he : s.emb with k | emb
    · rw [he] at h1
      cases hs : s.earth <;> rw [hs] at h1 <;> simp [bind, Except.bind] at h1
    · rw [he] at h1
      cases hs : s.earth with
      | none =>
        rw [hs] at h1
        rcases hm : s.moon with k | moon
        · rw [hm] at h1; simp [bind, Except.bind] at h1
        · rw [hm] at h1
          simp only [bind, Except.bind, Except.ok.injEq] at h1 ⊢
          rw [← h1, map_sub]
      | some o =>
        rw [hs] at h1
        cases o with
        | error k => simp [bind, Except.bind] at h1
        | ok off =>
          simp only [bind, Except.bind, Except.ok.injEq] at h1 ⊢
          rw [← h1, map_sub]

/-- With a direct Earth segment the mean is the barycenter exactly when the segment satisfies the mass
relation: the code does not enforce it. -/
theorem mass_weighted_mean_direct {r : K} (hr : r ≠ 0) (hr1 : r + 1 ≠ 0) (out : V →ₗ[K] V) {s : Stacks V}
    {emb moon off earth moonRel : V} (he : s.emb = .ok emb) (hm : s.moon = .ok moon)
    (hs : s.earth = some (.ok off)) (hrel : off = -((1 / r) • moon))
    (h1 : earthBary r out s = .ok earth) (h2 : moonGeocentric r out s = .ok moonRel) :
    (r / (r + 1)) • earth + (1 / (r + 1)) • (earth + moonRel) = out emb := by
  have hrel2 := moon_is_difference hr hr1 out he hm h1 h2
  unfold earthBary at h1
  rw [hs] at h1
  simp only [he, bind, Except.bind, Except.ok.injEq] at h1
  subst h1 hrel2 hrel
  simp only [map_add, map_neg, map_smul]
  have hk : (r / (r + 1)) + (1 / (r + 1)) = 1 := by field_simp
  have hm' : (r / (r + 1)) * (1 / r) = 1 / (r + 1) := by field_simp
  have : out emb + -((1 / r) • out moon) + (out emb + out moon - (out emb + -((1 / r) • out moon))) =
      out emb + out moon := by abel
  rw [this, smul_add, smul_add, smul_neg, smul_smul, hm']
  have : (r / (r + 1)) • out emb + (1 / (r + 1)) • out emb = out emb := by rw [← add_smul, hk, one_smul]
  calc _ = ((r / (r + 1)) • out emb + (1 / (r + 1)) • out emb) := by abel
    _ = _ := this

/-- Velocities obey the same relation: the mass-weighted mean of the Earth velocity and the Moon velocity
(barycenter plus Moon segment) is the barycenter velocity. -/
theorem velocity_mass_weighted_mean {r : K} (hr : r ≠ 0) (hr1 : r + 1 ≠ 0) (out : V →ₗ[K] V) {s : Stacks V}
    (hs : s.earth = none) {emb moon earth : V} (he : s.emb = .ok emb) (hm : s.moon = .ok moon)
    (h1 : earthBaryVelocity r out s = .ok earth) :
    (r / (r + 1)) • earth + (1 / (r + 1)) • out (emb + moon) = out emb := by
  have h2 : moonGeocentric r out s = .ok (out (moonGeo r • moon)) := by
    simp [moonGeocentric, hs, hm, bind, Except.bind]
  have h3 := moon_is_difference hr hr1 out he hm h1 h2
  have h4 := mass_weighted_mean hr hr1 out hs he h1 h2
  rw [h3] at h4
  simpa using h4

/-- The fractions sum to one. -/
theorem fractions_sum {r : K} (hr1 : r + 1 ≠ 0) : fracEarth r + fracMoon r = 1 := by
  unfold fracEarth fracMoon
  field_simp

end bodies

/-- Concrete: EMB at 1000, Moon 400 from it, Sun at 10, mass ratio 80: Earth at 995. -/
example : earthBary (80 : ℚ) LinearMap.id ⟨.ok 10, .ok (1000 : ℚ), .ok 400, none⟩ = .ok 995 := by
  simp [earthBary, earthOffset, bind, Except.bind]; norm_num
example : moonGeocentric (80 : ℚ) LinearMap.id ⟨.ok 10, .ok (1000 : ℚ), .ok 400, none⟩ = .ok 405 := by
  simp [moonGeocentric, moonGeo, fracEarth, bind, Except.bind]; norm_num
example : earthHelio (80 : ℚ) LinearMap.id ⟨.ok 10, .ok (1000 : ℚ), .ok 400, none⟩ = .ok 985 := by
  simp [earthHelio, earthOffset, bind, Except.bind]; norm_num

/-- Disagreement: with an Earth segment present but out of range, the Earth is an error although the Moon
segment would give it; the resolver of `SpkKernelSet` falls back in the same situation. -/
theorem earth_segment_out_of_range_no_fallback :
    earthBary (80 : ℚ) LinearMap.id ⟨.ok 10, .ok (1000 : ℚ), .ok 400, some (.error .outOfRange)⟩ =
      .error .outOfRange ∧
    (∃ v, geometric ℚ (⟨399, 3, 0, 5, fun _ => .ok 1⟩ :: demoSet) 399 0 20 = some (.ok v)) := by
  refine ⟨rfl, 1000 - 400 / earthMoonRatio ℚ, by decide +kernel⟩

end Verif.Spk.Props
