import Mathlib.Data.List.Perm.Subperm
import Mathlib.Data.List.Nodup
import Mathlib.Tactic.Abel
import Verif.Spk.Spec

namespace Verif.Spk
open Spec

/-! ### The search -/

section search
variable {L : Type}

theorem seen_iff {vis : Visited L} {n : Int} : seen vis n = true ↔ n ∈ vis.map (·.1) := by
  simp only [seen, List.any_eq_true, beq_iff_eq, List.mem_map]

theorem seen_cons {x : Int × Int × Option L} {vis : Visited L} {n : Int} :
    seen (x :: vis) n = true ↔ x.1 = n ∨ seen vis n = true := by
  rw [seen_iff, seen_iff]
  simp [eq_comm]

/-- The table of the search: a tree rooted in `target`. -/
inductive Tree (edges : Int → List (L × Int)) (target : Int) : Visited L → Prop
  | base : Tree edges target [(target, target, none)]
  | step {vis : Visited L} {p v : Int} {l : L} (t : Tree edges target vis) (hp : seen vis p = true)
      (hv : ¬ seen vis v = true) (he : (l, v) ∈ edges p) : Tree edges target ((v, p, some l) :: vis)

variable {edges : Int → List (L × Int)} {target goal : Int}

theorem Tree.root {vis : Visited L} (t : Tree edges target vis) : seen vis target = true := by
  induction t with
  | base => simp [seen]
  | step t hp hv he ih => rw [seen_cons]; exact Or.inr ih

theorem Tree.nodup {vis : Visited L} (t : Tree edges target vis) : (vis.map (·.1)).Nodup := by
  induction t with
  | base => simp
  | step t hp hv he ih =>
    rw [List.map_cons, List.nodup_cons]
    exact ⟨fun h => hv (seen_iff.mpr h), ih⟩

theorem Tree.subset {vis : Visited L} (t : Tree edges target vis) {U : List Int}
    (hU : ∀ p, ∀ x ∈ edges p, x.2 ∈ U) : vis.map (·.1) ⊆ target :: U := by
  induction t with
  | base => simp
  | step t hp hv he ih =>
    intro n hn
    rw [List.map_cons, List.mem_cons] at hn
    rcases hn with rfl | hn
    · exact List.mem_cons_of_mem _ (hU _ _ he)
    · exact ih hn

theorem Tree.bound {vis : Visited L} (t : Tree edges target vis) {U : List Int}
    (hU : ∀ p, ∀ x ∈ edges p, x.2 ∈ U) : vis.length ≤ U.length + 1 := by
  have := (List.subperm_of_subset t.nodup (t.subset hU)).length_le
  simpa using this

/-- Reachability along edges. -/
def Reach (edges : Int → List (L × Int)) : Int → Int → Prop :=
  Relation.ReflTransGen (fun a b => ∃ l, (l, b) ∈ edges a)

theorem Tree.reach {vis : Visited L} (t : Tree edges target vis) :
    ∀ n, seen vis n = true → Reach edges target n := by
  induction t with
  | base =>
    intro n hn
    have : target = n := by simpa [seen] using hn
    rw [this]
    exact .refl
  | step t hp hv he ih =>
    intro n hn
    rcases seen_cons.mp hn with rfl | hn
    · exact (ih _ hp).tail ⟨_, he⟩
    · exact ih n hn

theorem visit_fold {node : Int} : ∀ (es : List (L × Int)) (vis : Visited L) (queue : List Int),
    Tree edges target vis → seen vis node = true → (∀ x ∈ es, x ∈ edges node) →
    ∃ new, (es.foldl (visit node) (vis, queue)).2 = queue ++ new ∧
      (es.foldl (visit node) (vis, queue)).1.length = vis.length + new.length ∧
      (∀ n, seen (es.foldl (visit node) (vis, queue)).1 n = true ↔ seen vis n = true ∨ n ∈ new) ∧
      Tree edges target (es.foldl (visit node) (vis, queue)).1 ∧
      ∀ x ∈ es, seen (es.foldl (visit node) (vis, queue)).1 x.2 = true
  | [], vis, queue, t, _, _ => ⟨[], by simp, by simp, by simp, t, by simp⟩
  | x :: es, vis, queue, t, hs, hes => by
    rw [List.foldl_cons]
    by_cases hx : seen vis x.2 = true
    · have hv : visit node (vis, queue) x = (vis, queue) := by simp [visit, hx]
      rw [hv]
      obtain ⟨new, h1, h2, h3, h4, h5⟩ := visit_fold es vis queue t hs (fun y hy => hes y (by simp [hy]))
      refine ⟨new, h1, h2, h3, h4, ?_⟩
      intro y hy
      rcases List.mem_cons.mp hy with rfl | hy
      · exact (h3 _).mpr (Or.inl hx)
      · exact h5 y hy
    · have hv : visit node (vis, queue) x = ((x.2, node, some x.1) :: vis, queue ++ [x.2]) := by
        simp [visit, hx]
      rw [hv]
      have t' : Tree edges target ((x.2, node, some x.1) :: vis) :=
        .step t hs hx (hes x (by simp))
      obtain ⟨new, h1, h2, h3, h4, h5⟩ := visit_fold es _ (queue ++ [x.2]) t'
        (seen_cons.mpr (Or.inr hs)) (fun y hy => hes y (by simp [hy]))
      refine ⟨x.2 :: new, by rw [h1]; simp, by rw [h2]; simp; omega, ?_, h4, ?_⟩
      · intro n
        rw [h3, seen_cons, List.mem_cons]
        constructor
        · rintro ((h | h) | h)
          · exact Or.inr (Or.inl h.symm)
          · exact Or.inl h
          · exact Or.inr (Or.inr h)
        · rintro (h | h | h)
          · exact Or.inl (Or.inr h)
          · exact Or.inl (Or.inl h.symm)
          · exact Or.inr h
      · intro y hy
        rcases List.mem_cons.mp hy with rfl | hy
        · exact (h3 _).mpr (Or.inl (seen_cons.mpr (Or.inl rfl)))
        · exact h5 y hy

/-- The search finishes; what it returns. -/
theorem bfs_spec {U : List Int} (hU : ∀ p, ∀ x ∈ edges p, x.2 ∈ U) :
    ∀ (n : Nat) (vis : Visited L) (queue done : List Int), Tree edges target vis →
    (∀ m, seen vis m = true ↔ m ∈ done ∨ m ∈ queue) → done.length + queue.length = vis.length →
    (∀ m ∈ done, ∀ x ∈ edges m, seen vis x.2 = true) → goal ∉ done → U.length + 2 ≤ n + done.length →
    ∃ b vis', bfs edges goal n vis queue = some (b, vis') ∧ Tree edges target vis' ∧
      (b = true → seen vis' goal = true) ∧
      (b = false → ¬ seen vis' goal = true ∧ ∀ m, seen vis' m = true → ∀ x ∈ edges m, seen vis' x.2 = true)
  | 0, vis, queue, done, t, _, hlen, _, _, hfuel => by
    have := t.bound hU
    omega
  | n + 1, vis, [], done, t, hseen, hlen, hcl, hg, hfuel => by
    refine ⟨false, vis, rfl, t, by simp, fun _ => ⟨?_, ?_⟩⟩
    · rw [hseen]; simpa using hg
    · intro m hm
      rw [hseen] at hm
      exact hcl m (by simpa using hm)
  | n + 1, vis, node :: queue, done, t, hseen, hlen, hcl, hg, hfuel => by
    unfold bfs
    split
    · rename_i hn
      exact ⟨true, vis, rfl, t, fun _ => (hseen _).mpr (by simp [hn]), by simp⟩
    · rename_i hn
      obtain ⟨new, h1, h2, h3, h4, h5⟩ := visit_fold (edges node) vis queue t
        ((hseen node).mpr (by simp)) (fun x hx => hx)
      dsimp only
      rw [h1]
      refine bfs_spec hU n _ (queue ++ new) (done ++ [node]) h4 ?_ ?_ ?_ ?_ ?_
      · intro m
        rw [h3, hseen]
        simp only [List.mem_append, List.mem_cons, List.not_mem_nil, or_false]
        tauto
      · rw [h2]; simp at hlen ⊢; omega
      · intro m hm x hx
        rcases List.mem_append.mp hm with hm | hm
        · exact (h3 _).mpr (Or.inl (hcl m hm x hx))
        · rw [List.mem_singleton] at hm
          subst hm
          exact h5 x hx
      · intro hm
        rcases List.mem_append.mp hm with hm | hm
        · exact hg hm
        · exact hn (List.mem_singleton.mp hm).symm
      · simp; omega

theorem closed_reach {vis : Visited L} (t : Tree edges target vis)
    (hcl : ∀ m, seen vis m = true → ∀ x ∈ edges m, seen vis x.2 = true) {n : Int}
    (h : Reach edges target n) : seen vis n = true := by
  induction h with
  | refl => exact t.root
  | tail _ hab ih =>
    obtain ⟨l, hl⟩ := hab
    exact hcl _ ih _ hl

/-- The search answers exactly whether the goal is reachable. -/
theorem bfs_iff {U : List Int} (hU : ∀ p, ∀ x ∈ edges p, x.2 ∈ U) {n : Nat} (hn : U.length + 2 ≤ n) :
    ∃ b vis, bfs edges goal n [(target, target, none)] [target] = some (b, vis) ∧
      (b = true ↔ Reach edges target goal) ∧ Tree edges target vis ∧
      (b = true → seen vis goal = true) := by
  obtain ⟨b, vis, h1, h2, h3, h4⟩ := bfs_spec (goal := goal) hU n [(target, target, none)] [target] []
    .base (fun m => by rw [seen_iff]; simp) (by simp) (by simp) (by simp) (by simpa using hn)
  refine ⟨b, vis, h1, ⟨fun hb => h2.reach _ (h3 hb), fun hr => ?_⟩, h2, h3⟩
  cases b with
  | true => rfl
  | false =>
    obtain ⟨a, c⟩ := h4 rfl
    exact absurd (closed_reach h2 c hr) a

/-- A path along labelled edges. -/
inductive Path (edges : Int → List (L × Int)) : Int → List L → Int → Prop
  | nil (a : Int) : Path edges a [] a
  | cons {a b c : Int} {l : L} {ls : List L} (h : (l, b) ∈ edges a) (r : Path edges b ls c) :
      Path edges a (l :: ls) c

theorem Path.snoc {a b c : Int} {ls : List L} {l : L} (p : Path edges a ls b) (h : (l, c) ∈ edges b) :
    Path edges a (ls ++ [l]) c := by
  induction p with
  | nil => exact .cons h (.nil _)
  | cons h' _ ih => exact .cons h' (ih h)

theorem find_entry {vis : Visited L} (t : Tree edges target vis) {node : Int} (hs : seen vis node = true)
    {x : Int × Int × Option L} (h : vis.find? (fun x => x.1 == node) = some x) :
    seen vis x.2.1 = true := by
  induction t with
  | base =>
    have : x ∈ [(target, target, none)] := List.mem_of_find?_eq_some h
    simp at this
    subst this
    simp [seen]
  | step t hp hv he ih =>
    rw [List.find?_cons] at h
    split at h
    · simp only [Option.some.injEq] at h
      subst h
      exact seen_cons.mpr (Or.inr hp)
    · rename_i hne
      have hs' := (seen_cons.mp hs).resolve_left (by simpa using hne)
      exact seen_cons.mpr (Or.inr (ih hs' h))

theorem walkBack_mono {vis : Visited L} (t : Tree edges target vis) {x : Int × Int × Option L}
    (hx : ¬ seen vis x.1 = true) : ∀ f node, seen vis node = true →
    walkBack (x :: vis) target f node = walkBack vis target f node
  | 0, _, _ => rfl
  | f + 1, node, hs => by
    unfold walkBack
    have hne : (x.1 == node) = false := by
      rw [beq_eq_false_iff_ne]
      rintro rfl
      exact hx hs
    split
    · rfl
    · rw [List.find?_cons, hne]
      simp only
      split
      · rename_i pred l hf
        have := find_entry t hs hf
        rw [walkBack_mono t hx f pred this]
      · rfl

theorem walkBack_spec {vis : Visited L} (t : Tree edges target vis) :
    ∀ f node, vis.length ≤ f → seen vis node = true →
      ∃ ls, walkBack vis target f node = some (some ls) ∧ Path edges target ls node := by
  induction t with
  | base =>
    intro f node hf hs
    have hn : target = node := by simpa [seen] using hs
    obtain ⟨f, rfl⟩ : ∃ g, f = g + 1 := ⟨f - 1, by simp at hf; omega⟩
    refine ⟨[], ?_, hn ▸ .nil _⟩
    unfold walkBack
    rw [if_pos hn.symm]
  | @step vis p v l t hp hv he ih =>
    intro f node hf hs
    rw [List.length_cons] at hf
    rcases seen_cons.mp hs with hvn | hs'
    · simp only at hvn
      subst hvn
      obtain ⟨f, rfl⟩ : ∃ g, f = g + 1 := ⟨f - 1, by omega⟩
      obtain ⟨ls, h1, h2⟩ := ih f p (by omega) hp
      refine ⟨ls ++ [l], ?_, h2.snoc he⟩
      have hvt : v ≠ target := by
        rintro rfl
        exact hv t.root
      unfold walkBack
      rw [if_neg hvt, List.find?_cons]
      simp only [beq_self_eq_true]
      rw [walkBack_mono t hv f p hp, h1]
    · obtain ⟨ls, h1, h2⟩ := ih f node (by omega) hs'
      exact ⟨ls, by rw [walkBack_mono t hv f node hs']; exact h1, h2⟩

end search

/-! ### Segment graphs -/

section segs
variable {T V : Type} [LinearOrder T]

theorem covers_iff {e : T} {s : Seg T V} : covers e s = true ↔ Covers e s := by
  unfold covers Covers
  simp

theorem mem_edgesAt {segs : List (Seg T V)} {e : T} {node m : Int} {i : Nat} {fwd : Bool} :
    ((i, fwd), m) ∈ edgesAt segs e node ↔ ∃ s, segs[i]? = some s ∧ Covers e s ∧
      ((fwd = true ∧ s.target = node ∧ s.center = m) ∨ (fwd = false ∧ s.center = node ∧ s.target = m)) := by
  unfold edgesAt
  rw [List.mem_append, List.mem_filterMap, List.mem_filterMap]
  constructor
  · rintro (⟨⟨s, j⟩, hmem, h⟩ | ⟨⟨s, j⟩, hmem, h⟩)
    · rw [List.mem_zipIdx_iff_getElem?] at hmem
      simp only at h hmem
      split_ifs at h with hc
      simp only [Option.some.injEq, Prod.mk.injEq] at h
      obtain ⟨⟨rfl, rfl⟩, rfl⟩ := h
      exact ⟨s, hmem, covers_iff.mp hc.2, Or.inl ⟨rfl, hc.1, rfl⟩⟩
    · rw [List.mem_zipIdx_iff_getElem?] at hmem
      simp only at h hmem
      split_ifs at h with hc
      simp only [Option.some.injEq, Prod.mk.injEq] at h
      obtain ⟨⟨rfl, rfl⟩, rfl⟩ := h
      exact ⟨s, hmem, covers_iff.mp hc.2, Or.inr ⟨rfl, hc.1, rfl⟩⟩
  · rintro ⟨s, hs, hc, ⟨rfl, h1, h2⟩ | ⟨rfl, h1, h2⟩⟩
    · refine Or.inl ⟨(s, i), List.mem_zipIdx_iff_getElem?.mpr hs, ?_⟩
      simp [h1, h2, covers_iff.mpr hc]
    · refine Or.inr ⟨(s, i), List.mem_zipIdx_iff_getElem?.mpr hs, ?_⟩
      simp [h1, h2, covers_iff.mpr hc]

/-- All ends of segments. -/
def ends (segs : List (Seg T V)) : List Int := segs.flatMap (fun s => [s.target, s.center])

omit [LinearOrder T] in
theorem ends_length (segs : List (Seg T V)) : (ends segs).length = 2 * segs.length := by
  unfold ends
  induction segs with
  | nil => rfl
  | cons s l ih => rw [List.flatMap_cons, List.length_append, ih]; simp; omega

omit [LinearOrder T] in
theorem mem_ends {segs : List (Seg T V)} {s : Seg T V} (h : s ∈ segs) :
    s.target ∈ ends segs ∧ s.center ∈ ends segs := by
  unfold ends
  constructor <;> exact List.mem_flatMap.mpr ⟨s, h, by simp⟩

theorem edgesAt_ends (segs : List (Seg T V)) (e : T) : ∀ p, ∀ x ∈ edgesAt segs e p, x.2 ∈ ends segs := by
  rintro p ⟨⟨i, fwd⟩, m⟩ hx
  obtain ⟨s, hs, _, h⟩ := mem_edgesAt.mp hx
  have := mem_ends (List.mem_of_getElem? hs)
  rcases h with ⟨_, _, rfl⟩ | ⟨_, _, rfl⟩
  · exact this.2
  · exact this.1

omit [LinearOrder T] in
theorem mem_edgesAny {segs : List (Seg T V)} {node m : Int} :
    ((), m) ∈ edgesAny segs node ↔ ∃ s ∈ segs, Joins s node m := by
  unfold edgesAny Joins
  rw [List.mem_filterMap]
  constructor
  · rintro ⟨s, hs, h⟩
    refine ⟨s, hs, ?_⟩
    split_ifs at h with h1 h2
    · simp only [Option.some.injEq, Prod.mk.injEq, true_and] at h
      exact Or.inl ⟨h1, h⟩
    · simp only [Option.some.injEq, Prod.mk.injEq, true_and] at h
      exact Or.inr ⟨h2, h⟩
  · rintro ⟨s, hs, ⟨h1, h2⟩ | ⟨h1, h2⟩⟩
    · exact ⟨s, hs, by simp [h1, h2]⟩
    · refine ⟨s, hs, ?_⟩
      by_cases h3 : s.target = node
      · simp [h3, ← h2, h1]
      · simp [h3, h1, h2, eq_comm]

omit [LinearOrder T] in
theorem edgesAny_ends (segs : List (Seg T V)) : ∀ p, ∀ x ∈ edgesAny segs p, x.2 ∈ ends segs := by
  rintro p ⟨⟨⟩, m⟩ hx
  obtain ⟨s, hs, h⟩ := mem_edgesAny.mp hx
  have := mem_ends hs
  rcases h with ⟨_, rfl⟩ | ⟨_, rfl⟩
  · exact this.2
  · exact this.1

theorem adj_iff {segs : List (Seg T V)} {e : T} {a b : Int} :
    (∃ l, (l, b) ∈ edgesAt segs e a) ↔ Adj segs e a b := by
  constructor
  · rintro ⟨⟨i, fwd⟩, h⟩
    obtain ⟨s, hs, hc, h⟩ := mem_edgesAt.mp h
    refine ⟨s, List.mem_of_getElem? hs, hc, ?_⟩
    rcases h with ⟨_, h⟩ | ⟨_, h⟩
    · exact Or.inl h
    · exact Or.inr h
  · rintro ⟨s, hs, hc, h⟩
    obtain ⟨i, hi⟩ := List.getElem?_of_mem hs
    rcases h with h | h
    · exact ⟨(i, true), mem_edgesAt.mpr ⟨s, hi, hc, Or.inl ⟨rfl, h⟩⟩⟩
    · exact ⟨(i, false), mem_edgesAt.mpr ⟨s, hi, hc, Or.inr ⟨rfl, h⟩⟩⟩

theorem reach_iff {segs : List (Seg T V)} {e : T} {a b : Int} :
    Reach (edgesAt segs e) a b ↔ Linked segs e a b := by
  unfold Reach Linked
  have : (fun a b => ∃ l, (l, b) ∈ edgesAt segs e a) = Adj segs e := by
    funext a b; exact propext adj_iff
  rw [this]

omit [LinearOrder T] in
theorem reachAny_iff {segs : List (Seg T V)} {a b : Int} :
    Reach (edgesAny segs) a b ↔ LinkedAny segs a b := by
  unfold Reach LinkedAny
  have : (fun a b => ∃ l, (l, b) ∈ edgesAny segs a) = (fun a b => ∃ s ∈ segs, Joins s a b) := by
    funext a b
    apply propext
    constructor
    · rintro ⟨⟨⟩, h⟩; exact mem_edgesAny.mp h
    · intro h; exact ⟨(), mem_edgesAny.mpr h⟩
  rw [this]

omit [LinearOrder T] in
theorem hasChainAny_spec (segs : List (Seg T V)) (t c : Int) :
    ∃ b, hasChainAny segs t c = some b ∧ (b = true ↔ LinkedAny segs t c) := by
  obtain ⟨b, vis, h1, h2, _⟩ := bfs_iff (goal := c) (target := t) (edgesAny_ends segs) (n := fuelFor segs)
    (by rw [ends_length]; exact le_rfl)
  refine ⟨b, ?_, by rw [h2, reachAny_iff]⟩
  unfold hasChainAny
  rw [h1]
  rfl

theorem findChain_spec (segs : List (Seg T V)) (t c : Int) (e : T) :
    (Linked segs e t c ∧ ∃ ls, findChain segs t c e = some (.ok ls) ∧ Path (edgesAt segs e) t ls c) ∨
    (¬ Linked segs e t c ∧ LinkedAny segs t c ∧ findChain segs t c e = some (.error .outOfCoverage)) ∨
    (¬ LinkedAny segs t c ∧ findChain segs t c e = some (.error .noChain)) := by
  obtain ⟨b, vis, h1, h2, h3, h4⟩ := bfs_iff (goal := c) (target := t) (edgesAt_ends segs e)
    (n := fuelFor segs) (by rw [ends_length]; exact le_rfl)
  obtain ⟨a, ha1, ha2⟩ := hasChainAny_spec segs t c
  rw [reach_iff] at h2
  have hsub : Linked segs e t c → LinkedAny segs t c := by
    intro h
    exact Relation.ReflTransGen.mono
      (show ∀ a b, Adj segs e a b → ∃ s ∈ segs, Joins s a b from fun a b ⟨s, hs, _, hj⟩ => ⟨s, hs, hj⟩) _ _ h
  unfold findChain
  rw [h1]
  cases b with
  | true =>
    left
    obtain ⟨ls, w1, w2⟩ := walkBack_spec h3 (vis.length + 1) c (by omega) (h4 rfl)
    refine ⟨h2.mp rfl, ls, ?_, w2⟩
    simp [w1]
  | false =>
    right
    have hn : ¬ Linked segs e t c := fun h => by simpa using h2.mpr h
    simp only [ha1]
    by_cases hany : LinkedAny segs t c
    · left
      exact ⟨hn, hany, by simp [ha2.mpr hany]⟩
    · right
      have : a = false := by
        cases a with
        | true => exact absurd (ha2.mp rfl) hany
        | false => rfl
      exact ⟨hany, by simp [this]⟩

/-- Along a path the sum succeeds with a chain sum, or some segment fails. -/
theorem sumPath_sound [AddCommGroup V] {segs : List (Seg T V)} {e : T} {t c : Int} {ls : List (Nat × Bool)}
    (p : Path (edgesAt segs e) t ls c) : ∀ {acc v : V}, sumPath segs e ls acc = .ok v →
      ∃ d, ChainSum segs e t c d ∧ v = acc + d := by
  induction p with
  | nil a =>
    intro acc v h
    simp only [sumPath, Except.ok.injEq] at h
    exact ⟨0, .nil a, by rw [h]; simp⟩
  | @cons a b c l ls h r ih =>
    intro acc v hv
    obtain ⟨i, fwd⟩ := l
    obtain ⟨s, hs, hc, hj⟩ := mem_edgesAt.mp h
    unfold sumPath at hv
    rw [hs] at hv
    simp only at hv
    split at hv
    · simp at hv
    · rename_i f hf
      split at hv
      · simp at hv
      · rename_i x hx
        obtain ⟨d, hd1, hd2⟩ := ih hv
        rcases hj with ⟨rfl, rfl, rfl⟩ | ⟨rfl, rfl, rfl⟩
        · exact ⟨x + d, .forward (List.mem_of_getElem? hs) hc hf hx hd1, by rw [hd2]; simp; abel⟩
        · exact ⟨-x + d, .backward (List.mem_of_getElem? hs) hc hf hx hd1, by rw [hd2]; simp; abel⟩

theorem sumPath_total [AddCommGroup V] {segs : List (Seg T V)} {e : T} (hev : Evaluable segs e) {t c : Int}
    {ls : List (Nat × Bool)} (p : Path (edgesAt segs e) t ls c) :
    ∀ acc : V, ∃ v, sumPath segs e ls acc = .ok v := by
  induction p with
  | nil a => intro acc; exact ⟨acc, rfl⟩
  | @cons a b c l ls h r ih =>
    intro acc
    obtain ⟨i, fwd⟩ := l
    obtain ⟨s, hs, hc, hj⟩ := mem_edgesAt.mp h
    obtain ⟨f, hf, x, hx⟩ := hev s (List.mem_of_getElem? hs) hc
    unfold sumPath
    rw [hs]
    simp only [hf, hx]
    exact ih _

/-- The sum never panics. -/
theorem sumPath_no_panic [AddCommGroup V] {segs : List (Seg T V)} {e : T}
    (hp : ∀ s ∈ segs, ∀ f, s.eval = some f → f e ≠ .error .panic) {t c : Int} {ls : List (Nat × Bool)}
    (p : Path (edgesAt segs e) t ls c) : ∀ acc : V, sumPath segs e ls acc ≠ .error .panic := by
  induction p with
  | nil a => intro acc; simp [sumPath]
  | @cons a b c l ls h r ih =>
    intro acc
    obtain ⟨i, fwd⟩ := l
    obtain ⟨s, hs, hc, hj⟩ := mem_edgesAt.mp h
    unfold sumPath
    rw [hs]
    simp only
    split
    · simp
    · rename_i f hf
      have := hp s (List.mem_of_getElem? hs) f hf
      split
      · rename_i x hx
        rw [hx] at this
        simpa using this
      · exact ih _

theorem ChainSum.consistent [AddCommGroup V] {segs : List (Seg T V)} {e : T} {pos : Int → V}
    (hc : Consistent segs e pos) {a b : Int} {v : V} (h : ChainSum segs e a b v) : v = pos a - pos b := by
  induction h with
  | nil a => simp
  | forward mem cov ev val _ ih =>
    rw [ih, hc _ mem cov _ ev _ val]; abel
  | backward mem cov ev val _ ih =>
    rw [ih, hc _ mem cov _ ev _ val]; abel

theorem linked_symm {segs : List (Seg T V)} {e : T} {a b : Int} (h : Linked segs e a b) :
    Linked segs e b a := by
  unfold Linked at *
  induction h with
  | refl => exact .refl
  | tail _ hab ih =>
    obtain ⟨s, hs, hc, hj⟩ := hab
    exact .head ⟨s, hs, hc, by unfold Joins at *; tauto⟩ ih

end segs

/-! ### Resolution to the barycenter -/

section ssb
variable {T V : Type} [LinearOrder T]

theorem coversEt_iff {e : T} {s : KSeg T V} : coversEt e s = true ↔ s.start ≤ e ∧ e ≤ s.stop := by
  simp [coversEt]

/-- The edge loop returns the first serving segment of the list. -/
theorem edgeLoop_ok {e : T} : ∀ {l : List (KSeg T V)} {first : Option KErr} {v : V},
    edgeLoop e l first = .ok v → ∃ pre s post, l = pre ++ s :: post ∧ Serves e s v ∧
      ∀ t ∈ pre, ∀ x, ¬ Serves e t x
  | [], first, v, h => by simp [edgeLoop] at h
  | s :: rest, first, v, h => by
    have lift : (∀ x, ¬ Serves e s x) → (∃ pre s' post, rest = pre ++ s' :: post ∧ Serves e s' v ∧
        ∀ t ∈ pre, ∀ x, ¬ Serves e t x) → ∃ pre s' post, s :: rest = pre ++ s' :: post ∧
        Serves e s' v ∧ ∀ t ∈ pre, ∀ x, ¬ Serves e t x := by
      rintro hns ⟨pre, s', post, rfl, h1, h2⟩
      refine ⟨s :: pre, s', post, rfl, h1, ?_⟩
      intro t ht
      rcases List.mem_cons.mp ht with rfl | ht
      · exact hns
      · exact h2 t ht
    unfold edgeLoop at h
    split at h
    · rename_i hc
      refine lift ?_ (edgeLoop_ok h)
      intro x hx
      simp [coversEt_iff.mpr hx.1] at hc
    · rename_i hc
      simp only [Bool.not_eq_true, Bool.not_eq_false'] at hc
      split at h
      · rename_i p hp
        simp only [Except.ok.injEq] at h
        subst h
        exact ⟨[], s, rest, rfl, ⟨coversEt_iff.mp (by simpa using hc), hp⟩, by simp⟩
      · rename_i x hp
        split at h
        · refine lift ?_ (edgeLoop_ok h)
          intro y hy
          rw [hy.2] at hp
          simp at hp
        · simp at h

variable [AddCommGroup V]

theorem ssbLoop_ok {e : T} {rec : Int → Option (Except KErr V)} :
    ∀ {l : List (KSeg T V)} {first : Option KErr} {v : V}, ssbLoop e rec l first = some (.done (.ok v)) →
      ∃ pre s post x c, l = pre ++ s :: post ∧ Serves e s x ∧ rec s.center = some (.ok c) ∧ v = c + x ∧
        ∀ t ∈ pre, ∀ y, Serves e t y → ∃ k, rec t.center = some (.error k)
  | [], first, v, h => by simp [ssbLoop] at h
  | s :: rest, first, v, h => by
    have lift : (∀ y, Serves e s y → ∃ k, rec s.center = some (.error k)) →
        (∃ pre s' post x c, rest = pre ++ s' :: post ∧ Serves e s' x ∧ rec s'.center = some (.ok c) ∧
          v = c + x ∧ ∀ t ∈ pre, ∀ y, Serves e t y → ∃ k, rec t.center = some (.error k)) →
        ∃ pre s' post x c, s :: rest = pre ++ s' :: post ∧ Serves e s' x ∧ rec s'.center = some (.ok c) ∧
          v = c + x ∧ ∀ t ∈ pre, ∀ y, Serves e t y → ∃ k, rec t.center = some (.error k) := by
      rintro hns ⟨pre, s', post, x, c, rfl, h1, h2, h3, h4⟩
      refine ⟨s :: pre, s', post, x, c, rfl, h1, h2, h3, ?_⟩
      intro t ht
      rcases List.mem_cons.mp ht with rfl | ht
      · exact hns
      · exact h4 t ht
    unfold ssbLoop at h
    split at h
    · rename_i hc
      refine lift ?_ (ssbLoop_ok h)
      intro x hx
      simp [coversEt_iff.mpr hx.1] at hc
    · rename_i hc
      have hcov : s.start ≤ e ∧ e ≤ s.stop := coversEt_iff.mp (by simpa using hc)
      split at h
      · rename_i off hp
        split at h
        · simp at h
        · rename_i c hr
          simp only [Option.some.injEq, Scan.done.injEq, Except.ok.injEq] at h
          exact ⟨[], s, rest, off, c, rfl, ⟨hcov, hp⟩, hr, h.symm, by simp⟩
        · rename_i k hr
          exact lift (fun _ _ => ⟨k, hr⟩) (ssbLoop_ok h)
      · rename_i x hp
        split at h
        · refine lift ?_ (ssbLoop_ok h)
          intro y hy
          rw [hy.2] at hp
          simp at hp
        · simp at h

theorem ssbLoop_finishes {e : T} {rec : Int → Option (Except KErr V)} :
    ∀ {l : List (KSeg T V)} {first : Option KErr}, (∀ s ∈ l, ∃ r, rec s.center = some r) →
      ∃ r, ssbLoop e rec l first = some r
  | [], first, _ => ⟨_, rfl⟩
  | s :: rest, first, h => by
    have ih := fun f => ssbLoop_finishes (e := e) (rec := rec) (l := rest) (first := f)
      (fun t ht => h t (by simp [ht]))
    unfold ssbLoop
    split
    · exact ih _
    · split
      · obtain ⟨r, hr⟩ := h s (by simp)
        rw [hr]
        cases r with
        | ok c => exact ⟨_, rfl⟩
        | error x => exact ih _
      · split
        · exact ih _
        · exact ⟨_, rfl⟩

/-- If some segment of the list serves the epoch, its center resolves and no segment fails hard, the
loop has an answer. -/
theorem ssbLoop_complete {e : T} {rec : Int → Option (Except KErr V)} :
    ∀ {l : List (KSeg T V)} {first : Option KErr}, (∀ s ∈ l, ∃ r, rec s.center = some r) →
      (∀ s ∈ l, (s.start ≤ e ∧ e ≤ s.stop) → ∀ k, s.pos e = .error k → k = .outOfRange) →
      (∃ s ∈ l, ∃ x, Serves e s x ∧ ∃ c, rec s.center = some (.ok c)) →
      ∃ v, ssbLoop e rec l first = some (.done (.ok v))
  | [], first, _, _, h => by obtain ⟨s, hs, _⟩ := h; simp at hs
  | s :: rest, first, hf, hh, h => by
    have ih : ∀ f, (∃ s ∈ rest, ∃ x, Serves e s x ∧ ∃ c, rec s.center = some (.ok c)) →
        ∃ v, ssbLoop e rec rest f = some (.done (.ok v)) := fun f hex =>
      ssbLoop_complete (fun t ht => hf t (by simp [ht])) (fun t ht => hh t (by simp [ht])) hex
    obtain ⟨s', hs', x, hx, c, hc⟩ := h
    unfold ssbLoop
    split
    · rename_i hcov
      apply ih
      rcases List.mem_cons.mp hs' with rfl | hs'
      · simp [coversEt_iff.mpr hx.1] at hcov
      · exact ⟨s', hs', x, hx, c, hc⟩
    · rename_i hcov
      have hcov : s.start ≤ e ∧ e ≤ s.stop := coversEt_iff.mp (by simpa using hcov)
      split
      · rename_i off hp
        obtain ⟨r, hr⟩ := hf s (by simp)
        rw [hr]
        cases r with
        | ok c => exact ⟨_, rfl⟩
        | error k =>
          simp only
          apply ih
          rcases List.mem_cons.mp hs' with rfl | hs'
          · rw [hc] at hr; simp at hr
          · exact ⟨s', hs', x, hx, c, hc⟩
      · rename_i k hp
        have := hh s (by simp) hcov k hp
        rw [if_pos this]
        apply ih
        rcases List.mem_cons.mp hs' with rfl | hs'
        · rw [hx.2] at hp; simp at hp
        · exact ⟨s', hs', x, hx, c, hc⟩

end ssb

end Verif.Spk
