import Mathlib.Algebra.Order.Floor.Ring
import Mathlib.Data.Rat.Floor
import Mathlib.Tactic.Linarith
import Mathlib.Tactic.Positivity
import Mathlib.Tactic.NormNum
import Mathlib.Tactic.Ring
import Verif.Search.Props
import Verif.Solar.Model

/-! Lemmas on the solar day predictor: days, refinement of one candidate, one day. -/
namespace Verif.Solar
open Verif.Search Verif.Search.Spec
open Verif.Event (LabeledCrossing sortAndDedup dedupeEps)

variable {F : Type} [Field F] [LinearOrder F] [IsStrictOrderedRing F]

/-! ### Days -/

theorem daysLoop_mem {last : F} (n : Nat) : ∀ (d : F) l, daysLoop last n d = some l →
    ∀ x, x ∈ l ↔ ∃ k : ℕ, x = d + k ∧ x ≤ last := by
  induction n with
  | zero => intro d l h; cases h
  | succ n ih =>
    intro d l h x
    unfold daysLoop at h
    split at h
    · rename_i hd
      rw [Option.map_eq_some_iff] at h
      obtain ⟨l', hl', rfl⟩ := h
      rw [List.mem_cons, ih _ _ hl' x]
      constructor
      · rintro (rfl | ⟨k, rfl, hk⟩)
        · exact ⟨0, by simp, hd⟩
        · exact ⟨k + 1, by push_cast; ring, hk⟩
      · rintro ⟨k, rfl, hk⟩
        cases k with
        | zero => left; simp
        | succ k => right; exact ⟨k, by push_cast; ring, hk⟩
    · rename_i hd
      cases h
      simp only [List.not_mem_nil, false_iff, not_exists, not_and]
      rintro k rfl hk
      have : (0 : F) ≤ k := Nat.cast_nonneg k
      exact hd (by linarith)

theorem daysLoop_chain {last : F} (n : Nat) : ∀ (d : F) l, daysLoop last n d = some l →
    (∀ x, l.head? = some x → x = d) ∧ l.IsChain (fun x y => y = x + 1) := by
  induction n with
  | zero => intro d l h; cases h
  | succ n ih =>
    intro d l h
    unfold daysLoop at h
    split at h
    · rw [Option.map_eq_some_iff] at h
      obtain ⟨l', hl', rfl⟩ := h
      obtain ⟨h1, h2⟩ := ih _ _ hl'
      refine ⟨by simp, ?_⟩
      rw [List.isChain_cons]
      exact ⟨fun y hy => h1 y hy, h2⟩
    · cases h
      simp

theorem daysLoop_mono {last : F} (n : Nat) : ∀ (d : F) l, daysLoop last n d = some l →
    ∀ m, n ≤ m → daysLoop last m d = some l := by
  induction n with
  | zero => intro d l h; cases h
  | succ n ih =>
    intro d l h m hm
    obtain ⟨m, rfl⟩ : ∃ k, m = k + 1 := ⟨m - 1, by omega⟩
    unfold daysLoop at h ⊢
    split at h
    · rename_i hd
      rw [Option.map_eq_some_iff] at h
      obtain ⟨l', hl', rfl⟩ := h
      rw [if_pos hd, ih _ _ hl' m (by omega)]; rfl
    · rename_i hd
      rw [if_neg hd]; exact h

theorem daysLoop_isSome {last : F} (n : Nat) : ∀ d : F, last < d + n → (daysLoop last (n + 1) d).isSome := by
  induction n with
  | zero =>
    intro d h
    unfold daysLoop
    rw [if_neg (by push_cast at h; linarith)]; rfl
  | succ n ih =>
    intro d h
    unfold daysLoop
    split
    · rw [Option.isSome_map]
      exact ih _ (by push_cast at h; linarith)
    · rfl

theorem eventDays_mem [FloorRing F] {fuel : Nat} {a b : F} (hab : a < b) {days : List F}
    (h : eventDays fuel a b = some days) (x : F) :
    x ∈ days ↔ ∃ n : ℤ, x = n ∧ ⌊a⌋ - 1 ≤ n ∧ n ≤ ⌊b⌋ + 1 := by
  unfold eventDays at h
  rw [if_pos hab] at h
  rw [daysLoop_mem _ _ _ h x]
  constructor
  · rintro ⟨k, rfl, hk⟩
    refine ⟨⌊a⌋ - 1 + k, by push_cast; ring, by omega, ?_⟩
    have : ((⌊a⌋ - 1 + k : ℤ) : F) ≤ ((⌊b⌋ + 1 : ℤ) : F) := by
      push_cast; push_cast at hk; linarith
    exact_mod_cast this
  · rintro ⟨n, rfl, h1, h2⟩
    refine ⟨(n - (⌊a⌋ - 1)).toNat, ?_, by exact_mod_cast h2⟩
    have : ((n - (⌊a⌋ - 1)).toNat : ℤ) = n - (⌊a⌋ - 1) := Int.toNat_of_nonneg (by omega)
    have h3 : (((n - (⌊a⌋ - 1)).toNat : ℤ) : F) = ((n - (⌊a⌋ - 1) : ℤ) : F) := by rw [this]
    push_cast at h3
    rw [h3]; ring

theorem influence_sub (a b d : F) : a ≤ (influence a b d).1 ∧ (influence a b d).2 ≤ b :=
  ⟨le_max_left _ _, min_le_left _ _⟩

/-! ### Refinement -/

theorem located_weaken {g : F → F} {lo hi resTol timeTol resTol' timeTol' r : F} (h1 : resTol ≤ resTol')
    (h2 : timeTol ≤ timeTol') (h : Located g lo hi resTol timeTol r) :
    Located g lo hi resTol' timeTol' r := by
  rcases h with h | ⟨y, y1, y2, y3, y4⟩
  · exact Or.inl (h.trans h1)
  · exact Or.inr ⟨y, y1, y2, y3.trans (by linarith), y4⟩

theorem findBracket_spec {r : F → F} {atRoot lo hi center : F} (radii : List F) {p : F × F}
    (h : findBracket r atRoot lo hi center radii = some p) :
    lo ≤ p.1 ∧ p.1 ≤ p.2 ∧ p.2 ≤ hi ∧
      ((p.1 = p.2 ∧ |r p.1| ≤ atRoot) ∨ (p.1 < p.2 ∧ Opposite (r p.1) (r p.2))) := by
  induction radii with
  | nil => cases h
  | cons radius rest ih =>
    unfold findBracket at h
    dsimp only at h
    split at h
    · exact ih h
    rename_i hab
    have hab := not_le.mp hab
    have ha : lo ≤ max lo (center - radius) := le_max_left _ _
    have hb : min hi (center + radius) ≤ hi := min_le_left _ _
    split at h
    · rename_i hr
      cases h
      exact ⟨ha, le_rfl, hab.le.trans hb, Or.inl ⟨rfl, hr⟩⟩
    split at h
    · rename_i hr
      cases h
      exact ⟨ha.trans hab.le, le_rfl, hb, Or.inl ⟨rfl, hr⟩⟩
    split at h
    · rename_i ho
      cases h
      exact ⟨ha, hab.le, hb, Or.inr ⟨hab, (opposite_iff _ _).mp ho⟩⟩
    · exact ih h

theorem residualTol_pos (cfg : Config F) : 0 < residualTol cfg := effRes_pos _

theorem secantLoop_spec {r : F → F} {lo hi tol analytic : F} (n : Nat) : ∀ t rt slope t',
    (secantLoop r lo hi tol analytic n t rt slope).1 = some t' → lo ≤ t' ∧ t' ≤ hi ∧ |r t'| ≤ tol := by
  induction n with
  | zero => intro t rt slope t' h; cases h
  | succ n ih =>
    intro t rt slope t' h
    unfold secantLoop at h
    split at h
    · cases h
    dsimp only at h
    split at h
    · cases h
    rename_i hb
    push Not at hb
    split at h
    · rename_i hr
      cases h
      exact ⟨hb.1, hb.2, hr⟩
    split at h
    · cases h
    · exact ih _ _ _ _ h

/-- The search tolerances of the solar predictor, as the caller sees them. -/
def resBound (cfg : Config F) : F := 10 * max cfg.maxResidual (1 / 10 ^ 12)

def timeBound (cfg : Config F) : F := max cfg.timeTolerance (1 / 10 ^ 12)

theorem tol_le_resBound (cfg : Config F) : residualTol cfg ≤ resBound cfg := by
  have := residualTol_pos cfg
  unfold resBound
  unfold residualTol polyZeroTol at *
  linarith

theorem refineFull_spec {r : F → F} {cfg : Config F} {lo hi center t : F} (htol : 0 < cfg.timeTolerance)
    (hT : Fine lo hi cfg.timeTolerance) (h : refineFull r cfg lo hi center = some t) :
    lo ≤ t ∧ t ≤ hi ∧ Located r lo hi (resBound cfg) (timeBound cfg) t := by
  unfold refineFull at h
  rw [Option.bind_eq_some_iff] at h
  obtain ⟨p, hp, h⟩ := h
  obtain ⟨b1, b2, b3, b4⟩ := findBracket_spec _ hp
  split at h
  · rename_i hw
    cases h
    refine ⟨b1, b2.trans b3, ?_⟩
    rcases b4 with ⟨-, hr⟩ | ⟨hlt, ho⟩
    · exact Or.inl (hr.trans (tol_le_resBound cfg))
    · refine Or.inr ⟨p.2, b1.trans b2, b3, ?_, ho⟩
      rw [abs_of_pos (by linarith)]
      have h1 : (1 / 10 ^ 12 : F) ≤ timeBound cfg := le_max_right _ _
      have h0 : (0 : F) < 1 / 10 ^ 12 := by positivity
      unfold rootIntervalEps at hw
      linarith
  · rw [Option.bind_eq_some_iff] at h
    obtain ⟨root, hroot, h⟩ := h
    split at h
    · cases h
      obtain ⟨q1, q2, q3⟩ := brentF64_sound htol (fun x h1 h2 => hT x (b1.trans h1) (h2.trans b3)) hroot
      exact ⟨b1.trans q1, q2.trans b3, located_weaken (tol_le_resBound cfg) (le_max_left _ _)
        (located_mono b1 b3 q3)⟩
    · cases h

theorem fastRoot_mem {rf : F → F} {cfg : Config F} {lo hi center t : F}
    (h : fastRoot rf cfg lo hi center = some t) : lo ≤ t ∧ t ≤ hi := by
  unfold fastRoot at h
  rw [Option.bind_eq_some_iff] at h
  obtain ⟨p, -, h⟩ := h
  rw [Option.bind_eq_some_iff] at h
  obtain ⟨x, -, h⟩ := h
  split at h
  · cases h
  · rename_i hx
    push Not at hx
    cases h
    exact hx

theorem refineCandidate_spec {r rf : F → F} {cfg : Config F} {lo hi predicted slope t : F}
    (htol : 0 < cfg.timeTolerance) (hT : Fine lo hi cfg.timeTolerance)
    (h : refineCandidate r rf cfg lo hi predicted slope = some t) :
    lo ≤ t ∧ t ≤ hi ∧ Located r lo hi (resBound cfg) (timeBound cfg) t := by
  unfold refineCandidate at h
  rw [Option.bind_eq_some_iff] at h
  obtain ⟨t0, ht0, h⟩ := h
  obtain ⟨m1, m2⟩ := fastRoot_mem ht0
  split at h
  · rename_i hr
    cases h
    exact ⟨m1, m2, Or.inl (hr.trans (tol_le_resBound cfg))⟩
  · split at h
    · rename_i t' x heq
      cases h
      have hsp := secantLoop_spec (r := r) (lo := lo) (hi := hi) (tol := residualTol cfg * 10)
        (analytic := slope) 6 t0 (r t0) slope t (by rw [heq])
      refine ⟨hsp.1, hsp.2.1, Or.inl (hsp.2.2.trans ?_)⟩
      unfold resBound residualTol polyZeroTol
      linarith
    · exact refineFull_spec htol hT h

/-! ### One day -/

/-- What is known of every reported crossing of the Sun. -/
def SunCrossing (g : F → F) (cfg : Config F) (a b : F) (e : LabeledCrossing F) : Prop :=
  a ≤ e.t ∧ e.t ≤ b ∧ Located g a b (resBound cfg) (timeBound cfg) e.t ∧
    (e.direction = 1 ∨ e.direction = -1)

theorem sunCrossing_mono {g : F → F} {cfg : Config F} {a b a' b' : F} (h1 : a' ≤ a) (h2 : b ≤ b')
    {e : LabeledCrossing F} (h : SunCrossing g cfg a b e) : SunCrossing g cfg a' b' e :=
  ⟨h1.trans h.1, h.2.1.trans h2, located_mono h1 h2 h.2.2.1, h.2.2.2⟩

theorem fallbackWindow_spec {fit : Fit F} {fuel : Nat} {sky : Sky F} {thr : F} {cfg : Config F}
    {w : F × F} (hT : Fine w.1 w.2 (max cfg.timeTolerance machineEps))
    (hg : w.1 < w.2 → Props.Grained cfg w.1 w.2) (hbase : cfg.forceScanBaseline = false)
    {l : List (LabeledCrossing F)} (h : fallbackWindow fit fuel sky thr cfg w = some l) :
    ∀ e ∈ l, SunCrossing (fun t => sky.precise t - thr) cfg w.1 w.2 e := by
  unfold fallbackWindow at h
  split at h
  · rename_i hw
    rw [Option.map_eq_some_iff] at h
    obtain ⟨⟨l', above⟩, hl, rfl⟩ := h
    intro e he
    obtain ⟨q, -, -⟩ := Props.search_crossings_genuine _ _ _ _ _ _ _ _ hw (hg hw) hT hbase _ _ hl
    obtain ⟨q1, q2, q3, q4⟩ := q e he
    refine ⟨q1, q2, located_weaken ?_ ?_ q3, ?_⟩
    · have : (0 : F) < max cfg.maxResidual (1 / 10 ^ 12) := lt_of_lt_of_le (by positivity) (le_max_right _ _)
      unfold resBound; linarith
    · exact max_le_max le_rfl (by norm_num)
    · rcases q4 with q4 | q4
      · exact Or.inl q4.1
      · exact Or.inr q4.1
  · cases h
    simp

theorem refineAll_ok {r rf : F → F} {cfg : Config F} {a b lo hi : F} (cs : List (Candidate F))
    (htol : 0 < cfg.timeTolerance) (hT : Fine lo hi cfg.timeTolerance) :
    (∀ e ∈ (refineAll r rf cfg a b lo hi cs).1,
      lo ≤ e.t ∧ e.t ≤ hi ∧ Located r lo hi (resBound cfg) (timeBound cfg) e.t ∧
      ∃ c ∈ cs, e.direction = c.direction) ∧
    ((refineAll r rf cfg a b lo hi cs).2 = false → a ≤ lo → hi ≤ b →
      ∀ c ∈ cs, nearWindow a b c = true →
        ∃ e ∈ (refineAll r rf cfg a b lo hi cs).1, e.direction = c.direction ∧
          refineCandidate r rf cfg lo hi c.predicted c.slope = some e.t) := by
  induction cs with
  | nil => simp [refineAll]
  | cons c cs ih =>
    obtain ⟨ih1, ih2⟩ := ih
    have lift : ∀ e : LabeledCrossing F, (lo ≤ e.t ∧ e.t ≤ hi ∧ Located r lo hi (resBound cfg) (timeBound cfg) e.t ∧
        ∃ c ∈ cs, e.direction = c.direction) → (lo ≤ e.t ∧ e.t ≤ hi ∧
        Located r lo hi (resBound cfg) (timeBound cfg) e.t ∧
        ∃ c' ∈ c :: cs, e.direction = c'.direction) := by
      rintro e ⟨q1, q2, q3, c', hc', q4⟩
      exact ⟨q1, q2, q3, c', List.mem_cons_of_mem _ hc', q4⟩
    unfold refineAll
    dsimp only
    by_cases hn : nearWindow a b c = true
    · rw [if_pos hn]
      cases href : refineCandidate r rf cfg lo hi c.predicted c.slope with
      | none =>
        dsimp only
        refine ⟨fun e he => lift e (ih1 e he), fun h => by cases h⟩
      | some root =>
        dsimp only
        obtain ⟨q1, q2, q3⟩ := refineCandidate_spec htol hT href
        split
        · constructor
          · intro e he
            rcases List.mem_cons.mp he with rfl | he
            · exact ⟨q1, q2, q3, c, by simp, rfl⟩
            · exact lift e (ih1 e he)
          · intro hf ha hb c' hc' hn'
            rcases List.mem_cons.mp hc' with rfl | hc'
            · exact ⟨_, List.mem_cons_self, rfl, href⟩
            · obtain ⟨e, he, q⟩ := ih2 hf ha hb c' hc' hn'
              exact ⟨e, List.mem_cons_of_mem _ he, q⟩
        · rename_i hout
          refine ⟨fun e he => lift e (ih1 e he), fun hf ha hb => ?_⟩
          exact absurd ⟨ha.trans q1, q2.trans hb⟩ hout
    · rw [if_neg hn]
      refine ⟨fun e he => lift e (ih1 e he), fun hf ha hb c' hc' hn' => ?_⟩
      rcases List.mem_cons.mp hc' with rfl | hc'
      · exact absurd hn' hn
      · exact ih2 hf ha hb c' hc' hn'

theorem candidates_direction {sky : Sky F} {s : DayState F} {x : F} {c : Candidate F}
    (h : c ∈ candidates sky s x) : c.direction = 1 ∨ c.direction = -1 := by
  simp only [candidates, List.mem_cons, List.not_mem_nil, or_false] at h
  rcases h with rfl | rfl
  · exact Or.inl rfl
  · exact Or.inr rfl

theorem predictDay_spec {fit : Fit F} {fuel : Nat} {sky : Sky F} {thr : F} {cfg : Config F}
    {a b day : F} {s : DayState F} (htol : 0 < cfg.timeTolerance)
    (hT : Fine a b cfg.timeTolerance)
    (hg : (influence a b day).1 < (influence a b day).2 →
      Props.Grained cfg (influence a b day).1 (influence a b day).2)
    (hbase : cfg.forceScanBaseline = false) {l : List (LabeledCrossing F)}
    (h : predictDay fit fuel sky thr cfg a b day s = some l) :
    ∀ e ∈ l, SunCrossing (fun t => sky.precise t - thr) cfg (influence a b day).1
      (influence a b day).2 e := by
  have hT' : Fine (influence a b day).1 (influence a b day).2 cfg.timeTolerance :=
    fine_sub (influence_sub a b day).1 (influence_sub a b day).2 hT
  have hf := fallbackWindow_spec (fit := fit) (fuel := fuel) (sky := sky) (thr := thr)
    (fine_mono (le_max_left _ _) hT') hg hbase (l := l)
  unfold predictDay at h
  dsimp only at h
  split at h
  · exact hf h
  · split at h
    · cases h; simp
    · exact hf h
  · split at h
    · cases h; simp
    · exact hf h
  · rename_i x _
    split at h
    · exact hf h
    · rename_i l' heq
      cases h
      intro e he
      have hr := (refineAll_ok (r := fun t => sky.precise t - thr) (rf := fun t => sky.fast t - thr)
        (a := a) (b := b) (candidates sky s x) htol hT').1 e (by rw [heq]; exact he)
      obtain ⟨q1, q2, q3, c, hc, q4⟩ := hr
      exact ⟨q1, q2, q3, by rw [q4]; exact candidates_direction hc⟩

theorem dayCrossings_spec {fit : Fit F} {fuel : Nat} {sky : Sky F} {thr : F} {cfg : Config F}
    {a b day : F} (htol : 0 < cfg.timeTolerance)
    (hT : Fine a b cfg.timeTolerance)
    (hg : (influence a b day).1 < (influence a b day).2 →
      Props.Grained cfg (influence a b day).1 (influence a b day).2)
    (hbase : cfg.forceScanBaseline = false) {l : List (LabeledCrossing F)}
    (h : dayCrossings fit fuel sky thr cfg a b day = some l) :
    ∀ e ∈ l, SunCrossing (fun t => sky.precise t - thr) cfg (influence a b day).1
      (influence a b day).2 e := by
  unfold dayCrossings at h
  split at h
  · exact fallbackWindow_spec (fine_mono (le_max_left _ _)
      (fine_sub (influence_sub a b day).1 (influence_sub a b day).2 hT)) hg hbase h
  · exact predictDay_spec htol hT hg hbase h

theorem allDays_mem {fit : Fit F} {fuel : Nat} {sky : Sky F} {thr : F} {cfg : Config F} {a b : F}
    (days : List F) : ∀ l, allDays fit fuel sky thr cfg a b days = some l →
    (∀ d ∈ days, ∃ ld, dayCrossings fit fuel sky thr cfg a b d = some ld ∧ ∀ e ∈ ld, e ∈ l) ∧
    (∀ e ∈ l, ∃ d ∈ days, ∃ ld, dayCrossings fit fuel sky thr cfg a b d = some ld ∧ e ∈ ld) := by
  induction days with
  | nil => intro l h; cases h; simp
  | cons d ds ih =>
    intro l h
    unfold allDays at h
    rw [Option.bind_eq_some_iff] at h
    obtain ⟨ld, hld, h⟩ := h
    rw [Option.map_eq_some_iff] at h
    obtain ⟨l', hl', rfl⟩ := h
    obtain ⟨i1, i2⟩ := ih l' hl'
    constructor
    · intro x hx
      rcases List.mem_cons.mp hx with rfl | hx
      · exact ⟨ld, hld, fun e he => List.mem_append_left _ he⟩
      · obtain ⟨lx, h1, h2⟩ := i1 x hx
        exact ⟨lx, h1, fun e he => List.mem_append_right _ (h2 e he)⟩
    · intro e he
      rcases List.mem_append.mp he with he | he
      · exact ⟨d, by simp, ld, hld, he⟩
      · obtain ⟨x, hx, q⟩ := i2 e he
        exact ⟨x, List.mem_cons_of_mem _ hx, q⟩

end Verif.Solar
