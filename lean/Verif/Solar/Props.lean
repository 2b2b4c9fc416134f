import Verif.Solar.Refine

/-! Properties of the solar day predictor (C57). -/
namespace Verif.Solar.Props
open Verif.Solar Verif.Search Verif.Search.Spec
open Verif.Event (LabeledCrossing sortAndDedup dedupeEps buildAbovePeriodsDirected)
open Verif.Search.Props (Grained)

variable {F : Type} [Field F] [LinearOrder F] [IsStrictOrderedRing F]

/-! ### Coverage -/

/-- **C57 (coverage).** Every instant of the query window lies in the influence interval of a
processed day; consecutive processed days are consecutive days, and where both influence intervals
are proper the later one begins before the earlier one ends; no influence interval leaves the query
window. -/
theorem days_cover [FloorRing F] (fuel : Nat) (a b : F) (hab : a < b) (days : List F)
    (h : eventDays fuel a b = some days) :
    (∀ t, a ≤ t → t ≤ b → ∃ d ∈ days, d ≤ t ∧ t < d + 1 ∧
      (influence a b d).1 ≤ t ∧ t ≤ (influence a b d).2) ∧
    days.IsChain (fun d d' => d' = d + 1 ∧
      ((influence a b d).1 < (influence a b d).2 → (influence a b d').1 < (influence a b d').2 →
        (influence a b d').1 < (influence a b d).2)) ∧
    ∀ d ∈ days, a ≤ (influence a b d).1 ∧ (influence a b d).2 ≤ b := by
  refine ⟨fun t h1 h2 => ?_, ?_, fun d _ => influence_sub a b d⟩
  · refine ⟨(⌊t⌋ : F), (eventDays_mem hab h _).mpr ⟨⌊t⌋, rfl, ?_, ?_⟩, Int.floor_le t,
      Int.lt_floor_add_one t, max_le h1 ?_, le_min h2 ?_⟩
    · have := Int.floor_le_floor h1; omega
    · have := Int.floor_le_floor h2; omega
    · have := Int.floor_le t; linarith
    · have := Int.lt_floor_add_one t; linarith
  · unfold eventDays at h
    rw [if_pos hab] at h
    refine (daysLoop_chain _ _ _ h).2.imp ?_
    rintro d d' rfl
    refine ⟨rfl, fun h1 h2 => ?_⟩
    unfold influence at *
    dsimp only at *
    rw [max_lt_iff, lt_min_iff, lt_min_iff] at h1 h2 ⊢
    exact ⟨h1.1, h2.2.1, by linarith⟩

/-- The loop over the days ends. -/
theorem days_finish [FloorRing F] (a b : F) : ∃ N days, ∀ fuel, N ≤ fuel →
    eventDays fuel a b = some days := by
  by_cases hab : a < b
  · obtain ⟨n, hn⟩ := exists_nat_gt ((⌊b⌋ : F) + 1 - ((⌊a⌋ : F) + -1))
    have hs := daysLoop_isSome (last := (⌊b⌋ : F) + 1) n ((⌊a⌋ : F) + -1) (by linarith)
    obtain ⟨days, hd⟩ := Option.isSome_iff_exists.mp hs
    refine ⟨n + 1, days, fun fuel hf => ?_⟩
    unfold eventDays
    rw [if_pos hab]
    exact daysLoop_mono _ _ _ hd fuel hf
  · exact ⟨0, [], fun fuel _ => by unfold eventDays; rw [if_neg hab]⟩

example : eventDays 10 (60000 + 1 / 2 : ℚ) (60001 + 3 / 4) =
    some [59999, 60000, 60001, 60002] := by decide +kernel

/-- **C57 (transit).** The transit computed for a day lies in that day, and differs by a whole number
of days from the instant where the hour angle of midday runs back to zero. -/
theorem transit_in_day (day : F) (e : Ephem F) (h0 : 0 ≤ e.hourAngle) (h1 : e.hourAngle < 1) :
    day ≤ transitOf day e ∧ transitOf day e ≤ day + 1 ∧
      ∃ k : ℤ, transitOf day e = day + 1 / 2 - e.hourAngle + k := by
  have hm : (day + (day + 1)) / 2 = day + 1 / 2 := by ring
  unfold transitOf
  dsimp only
  rw [hm]
  split
  · rename_i hlt
    exact ⟨by linarith, by linarith, 1, by push_cast; ring⟩
  · rename_i hge
    have hge := not_lt.mp hge
    split
    · exact ⟨by linarith, by linarith, -1, by push_cast; ring⟩
    · rename_i hle
      exact ⟨hge, not_lt.mp hle, 0, by push_cast; ring⟩

example : transitOf (60000 : ℚ) ⟨0, 1, 3 / 4⟩ = 60000 + 3 / 4 := by decide +kernel

/-- **C57 (no transit is overlooked).** A transit at most half a day away from an instant of the query
window falls in a processed day. -/
theorem transit_owner_processed [FloorRing F] (fuel : Nat) (a b : F) (hab : a < b) (days : List F)
    (h : eventDays fuel a b = some days) (t x : F) (h1 : a ≤ t) (h2 : t ≤ b) (hx : |x - t| ≤ 1 / 2) :
    ∃ d ∈ days, d ≤ x ∧ x < d + 1 := by
  refine ⟨(⌊x⌋ : F), (eventDays_mem hab h _).mpr ⟨⌊x⌋, rfl, ?_, ?_⟩, Int.floor_le x,
    Int.lt_floor_add_one x⟩
  · have hl := (abs_le.mp hx).1
    have : ⌊a⌋ ≤ ⌊x + 1⌋ := Int.floor_le_floor (by linarith)
    rw [Int.floor_add_one] at this
    omega
  · have hl := (abs_le.mp hx).2
    have : ⌊x⌋ ≤ ⌊b + 1⌋ := Int.floor_le_floor (by linarith)
    rw [Int.floor_add_one] at this
    omega

/-- **C57 (no candidate of the window is skipped).** A crossing predicted inside the query window lies
in the influence interval of the day of its transit, and passes the filter. -/
theorem candidate_in_influence (sky : Sky F) (s : DayState F) (day x a b : F)
    (ht : day ≤ s.transit) (ht' : s.transit ≤ day + 1) (h0 : 0 ≤ sky.arc x) (h1 : sky.arc x ≤ 1 / 2)
    (c : Candidate F) (hc : c ∈ candidates sky s x) (ha : a ≤ c.predicted) (hb : c.predicted ≤ b) :
    (influence a b day).1 ≤ c.predicted ∧ c.predicted ≤ (influence a b day).2 ∧
      nearWindow a b c = true := by
  have hp : day - 1 / 2 ≤ c.predicted ∧ c.predicted ≤ day + 3 / 2 := by
    simp only [candidates, List.mem_cons, List.not_mem_nil, or_false] at hc
    rcases hc with rfl | rfl <;> dsimp only <;> constructor <;> linarith
  refine ⟨max_le ha (by linarith [hp.1]), le_min hb (by linarith [hp.2]), ?_⟩
  unfold nearWindow
  rw [decide_eq_true_iff]
  constructor <;> linarith [show (0 : F) < 4 / 24 by norm_num]

/-- **C57 (every candidate is answered).** On a day whose model predicts crossings, either the whole
influence interval has been handed to the generic search, or every predicted crossing that lies in
the query window has been refined to an instant of the influence interval that is a root to the
tolerances, and is in the list of the day under the predicted direction. -/
theorem candidate_answered (fit : Fit F) (fuel : Nat) (sky : Sky F) (thr : F) (cfg : Config F)
    (a b day x : F) (s : DayState F) (htol : 0 < cfg.timeTolerance) (hT : Fine a b cfg.timeTolerance)
    (hs : dailyState sky day = some s) (hcase : dayCase sky s thr = .crossings x)
    (ld : List (LabeledCrossing F)) (h : dayCrossings fit fuel sky thr cfg a b day = some ld) :
    fallbackWindow fit fuel sky thr cfg (influence a b day) = some ld ∨
    ∀ c ∈ candidates sky s x, a ≤ c.predicted → c.predicted ≤ b →
      ∃ e ∈ ld, e.direction = c.direction ∧
        (influence a b day).1 ≤ e.t ∧ e.t ≤ (influence a b day).2 ∧
        Located (fun t => sky.precise t - thr) (influence a b day).1 (influence a b day).2
          (10 * max cfg.maxResidual (1 / 10 ^ 12)) (max cfg.timeTolerance (1 / 10 ^ 12)) e.t := by
  unfold dayCrossings at h
  rw [hs] at h
  dsimp only at h
  unfold predictDay at h
  dsimp only at h
  rw [hcase] at h
  dsimp only at h
  split at h
  · exact Or.inl h
  · rename_i l' heq
    cases h
    right
    intro c hc ha hb
    have hT' : Fine (influence a b day).1 (influence a b day).2 cfg.timeTolerance :=
      fine_sub (influence_sub a b day).1 (influence_sub a b day).2 hT
    have hn : nearWindow a b c = true := by
      unfold nearWindow
      rw [decide_eq_true_iff]
      constructor <;> linarith [show (0 : F) < 4 / 24 by norm_num]
    obtain ⟨e, he, q1, q2⟩ := (refineAll_ok (r := fun t => sky.precise t - thr)
      (rf := fun t => sky.fast t - thr) (a := a) (b := b) (candidates sky s x) htol hT').2
      (by rw [heq]) (influence_sub a b day).1 (influence_sub a b day).2 c hc hn
    rw [heq] at he
    obtain ⟨p1, p2, p3⟩ := refineCandidate_spec htol hT' q2
    exact ⟨e, he, q1, p1, p2, p3⟩

/-- **C57 (nothing found is discarded, nothing is invented).** The answer consists of crossings found
on processed days, each in the query window and a root of the precise altitude to the tolerances; it
is strictly increasing; and every crossing found on a processed day is in it to 10⁻⁸ days. -/
theorem solar_crossings_genuine [FloorRing F] (fit : Fit F) (fuel : Nat) (sky : Sky F) (thr : F)
    (cfg : Config F) (a b : F) (hab : a < b) (htol : 0 < cfg.timeTolerance)
    (hT : Fine a b cfg.timeTolerance) (hbase : cfg.forceScanBaseline = false) (days : List F)
    (hdays : eventDays fuel a b = some days)
    (hg : ∀ d ∈ days, (influence a b d).1 < (influence a b d).2 →
      Grained cfg (influence a b d).1 (influence a b d).2)
    (l : List (LabeledCrossing F)) (h : dailyCrossings fit fuel sky false thr cfg a b = some l) :
    (∀ e ∈ l, a ≤ e.t ∧ e.t ≤ b ∧
      Located (fun t => sky.precise t - thr) a b (10 * max cfg.maxResidual (1 / 10 ^ 12))
        (max cfg.timeTolerance (1 / 10 ^ 12)) e.t ∧ (e.direction = 1 ∨ e.direction = -1)) ∧
    l.Pairwise (fun u v => 1 / 10 ^ 8 ≤ v.t - u.t) ∧
    ∀ d ∈ days, ∃ ld, dayCrossings fit fuel sky thr cfg a b d = some ld ∧
      ∀ e ∈ ld, ∃ e' ∈ l, |e.t - e'.t| < 1 / 10 ^ 8 := by
  unfold dailyCrossings at h
  rw [if_neg (not_le.mpr hab), hbase] at h
  simp only [Bool.false_eq_true, if_false] at h
  rw [Option.bind_eq_some_iff] at h
  obtain ⟨days', hd', h⟩ := h
  rw [hdays] at hd'
  cases hd'
  rw [Option.map_eq_some_iff] at h
  obtain ⟨l0, hl0, rfl⟩ := h
  obtain ⟨m1, m2⟩ := allDays_mem _ _ hl0
  refine ⟨fun e he => ?_, sortAndDedup_sep _, fun d hd => ?_⟩
  · obtain ⟨d, hd, ld, hld, hed⟩ := m2 e (sortAndDedup_subset _ _ he)
    exact sunCrossing_mono (influence_sub a b d).1 (influence_sub a b d).2
      (dayCrossings_spec htol hT (hg d hd) hbase hld e hed)
  · obtain ⟨ld, hld, hsub⟩ := m1 d hd
    exact ⟨ld, hld, fun e he => sortAndDedup_near _ e (hsub e he)⟩

/-! ### Termination -/

theorem fallback_finishes [Archimedean F] (fit : Fit F) (sky : Sky F) (thr : F) (cfg : Config F)
    (hseg : 0 < cfg.segmentLength) (w : F × F) : ∃ N, ∀ fuel, N ≤ fuel →
    (fallbackWindow fit fuel sky thr cfg w).isSome := by
  obtain ⟨N, hN⟩ := Search.Props.search_always_finishes fit w.1 w.2 diurnalScanStep sky.precise thr cfg hseg
  refine ⟨N, fun fuel hf => ?_⟩
  unfold fallbackWindow
  split
  · rw [Option.isSome_map]; exact hN fuel hf
  · rfl

theorem day_finishes [Archimedean F] (fit : Fit F) (sky : Sky F) (thr : F) (cfg : Config F)
    (hseg : 0 < cfg.segmentLength) (a b day : F) : ∃ N, ∀ fuel, N ≤ fuel →
    (dayCrossings fit fuel sky thr cfg a b day).isSome := by
  obtain ⟨N, hN⟩ := fallback_finishes fit sky thr cfg hseg (influence a b day)
  refine ⟨N, fun fuel hf => ?_⟩
  have hF := hN fuel hf
  unfold dayCrossings
  split
  · exact hF
  · unfold predictDay
    dsimp only
    split
    · exact hF
    · split
      · rfl
      · exact hF
    · split
      · rfl
      · exact hF
    · split
      · exact hF
      · rfl

/-- **C57 (termination).** The search for solar crossings ends for every window, ephemeris and
threshold. -/
theorem solar_search_finishes [FloorRing F] (fit : Fit F) (sky : Sky F) (disabled : Bool) (thr : F)
    (cfg : Config F) (hseg : 0 < cfg.segmentLength) (a b : F) : ∃ N, ∀ fuel, N ≤ fuel →
    (dailyCrossings fit fuel sky disabled thr cfg a b).isSome := by
  obtain ⟨N1, h1⟩ := Search.Props.scan_always_finishes a b (cfg.scanStep.getD diurnalScanStep)
    sky.precise thr cfg.timeTolerance cfg.maxResidual
  obtain ⟨N2, h2⟩ := Search.Props.search_always_finishes fit a b diurnalScanStep sky.precise thr cfg hseg
  obtain ⟨N3, days, h3⟩ := days_finish a b
  have h4 : ∃ N, ∀ fuel, N ≤ fuel → (allDays fit fuel sky thr cfg a b days).isSome := by
    clear h3
    induction days with
    | nil => exact ⟨0, fun _ _ => rfl⟩
    | cons d ds ih =>
      obtain ⟨M1, g1⟩ := ih
      obtain ⟨M2, g2⟩ := day_finishes fit sky thr cfg hseg a b d
      refine ⟨max M1 M2, fun fuel hf => ?_⟩
      obtain ⟨x, hx⟩ := Option.isSome_iff_exists.mp (g1 fuel ((le_max_left _ _).trans hf))
      obtain ⟨y, hy⟩ := Option.isSome_iff_exists.mp (g2 fuel ((le_max_right _ _).trans hf))
      unfold allDays
      rw [hy, hx]; rfl
  obtain ⟨N4, h4⟩ := h4
  refine ⟨max (max N1 N2) (max N3 N4), fun fuel hf => ?_⟩
  simp only [max_le_iff] at hf
  unfold dailyCrossings
  split
  · rfl
  split
  · exact h1 fuel hf.1.1
  split
  · rw [Option.isSome_map]; exact h2 fuel hf.1.2
  · rw [h3 fuel hf.2.1]
    obtain ⟨x, hx⟩ := Option.isSome_iff_exists.mp (h4 fuel hf.2.2)
    show ((allDays fit fuel sky thr cfg a b days).map sortAndDedup).isSome = true
    rw [hx]; rfl

/-! ### Several thresholds at once -/

theorem extendAll_spec {fit : Fit F} {fuel : Nat} {sky : Sky F} {cfg : Config F} {a b day : F}
    (thrs : List F) : ∀ acc acc', acc.length = thrs.length →
    extendAll fit fuel sky cfg a b day thrs acc = some acc' →
    ∃ ls, List.Forall₂ (fun thr l => dayCrossings fit fuel sky thr cfg a b day = some l) thrs ls ∧
      acc' = List.zipWith (· ++ ·) acc ls := by
  induction thrs with
  | nil =>
    intro acc acc' hl h
    have : acc = [] := List.length_eq_zero_iff.mp hl
    subst this
    simp only [extendAll, Option.some.injEq] at h
    exact ⟨[], .nil, by simp [← h]⟩
  | cons thr thrs ih =>
    intro acc acc' hl h
    cases acc with
    | nil => simp at hl
    | cons x xs =>
      unfold extendAll at h
      rw [Option.bind_eq_some_iff] at h
      obtain ⟨l, hl1, h⟩ := h
      rw [Option.map_eq_some_iff] at h
      obtain ⟨r, hr, rfl⟩ := h
      obtain ⟨ls, f, rfl⟩ := ih xs r (by simpa using hl) hr
      exact ⟨l :: ls, .cons hl1 f, rfl⟩

theorem zipWith_assoc {α : Type} (acc : List (List α)) : ∀ xs ys : List (List α),
    List.zipWith (· ++ ·) (List.zipWith (· ++ ·) acc xs) ys =
      List.zipWith (· ++ ·) acc (List.zipWith (· ++ ·) xs ys) := by
  induction acc with
  | nil => simp
  | cons x acc ih =>
    intro xs ys
    cases xs <;> cases ys <;> simp [ih, List.append_assoc]

theorem zip_nil_right {α β : Type} : ∀ (acc : List (List α)) (ts : List β), acc.length = ts.length →
    List.zipWith (· ++ ·) acc (ts.map fun _ => []) = acc
  | [], [], _ => rfl
  | x :: xs, t :: ts, h => by
    have := zip_nil_right xs ts (by simpa using h)
    rw [List.map_cons, List.zipWith_cons_cons, this, List.append_nil]

theorem zip_nil_left {α β : Type} : ∀ (ls : List (List α)) (ts : List β), ls.length = ts.length →
    List.zipWith (· ++ ·) (ts.map fun _ => []) ls = ls
  | [], [], _ => rfl
  | x :: xs, t :: ts, h => by
    have := zip_nil_left xs ts (by simpa using h)
    rw [List.map_cons, List.zipWith_cons_cons, this, List.nil_append]

theorem forall₂_zip {α β : Type} {P Q R : α → List β → Prop}
    (hPQ : ∀ a x y, P a x → Q a y → R a (x ++ y)) {as : List α} {xs ys : List (List β)}
    (h1 : List.Forall₂ P as xs) (h2 : List.Forall₂ Q as ys) :
    List.Forall₂ R as (List.zipWith (· ++ ·) xs ys) := by
  induction h1 generalizing ys with
  | nil => cases h2; exact .nil
  | cons hp _ ih =>
    cases h2 with
    | cons hq h2 => exact .cons (hPQ _ _ _ hp hq) (ih h2)

theorem batchLoop_spec {fit : Fit F} {fuel : Nat} {sky : Sky F} {cfg : Config F} {a b : F}
    {thrs : List F} (days : List F) : ∀ acc acc', acc.length = thrs.length →
    batchLoop fit fuel sky cfg a b thrs days acc = some acc' →
    ∃ ls, List.Forall₂ (fun thr l => allDays fit fuel sky thr cfg a b days = some l) thrs ls ∧
      acc' = List.zipWith (· ++ ·) acc ls := by
  induction days with
  | nil =>
    intro acc acc' hl h
    cases h
    refine ⟨thrs.map (fun _ => []), ?_, ?_⟩
    · rw [List.forall₂_map_right_iff, List.forall₂_same]
      exact fun _ _ => rfl
    · exact (zip_nil_right acc thrs hl).symm
  | cons d ds ih =>
    intro acc acc' hl h
    unfold batchLoop at h
    rw [Option.bind_eq_some_iff] at h
    obtain ⟨acc1, h1, h⟩ := h
    obtain ⟨xs, fx, rfl⟩ := extendAll_spec thrs acc acc1 hl h1
    have hx := fx.length_eq
    obtain ⟨ys, fy, rfl⟩ := ih _ acc' (by rw [List.length_zipWith, hl, ← hx, min_self]) h
    refine ⟨List.zipWith (· ++ ·) xs ys, ?_, zipWith_assoc acc xs ys⟩
    refine forall₂_zip (fun thr x y hx hy => ?_) fx fy
    unfold allDays
    rw [hx, hy]; rfl

theorem mapM_forall₂ {α β : Type} {f : α → Option β} (l : List α) : ∀ rs, l.mapM f = some rs →
    List.Forall₂ (fun a r => f a = some r) l rs := by
  induction l with
  | nil => intro rs h; simp at h; subst h; exact .nil
  | cons x xs ih =>
    intro rs h
    simp only [List.mapM_cons, bind, Option.bind_eq_some_iff, pure, Option.some.injEq] at h
    obtain ⟨y, hy, ys, hys, rfl⟩ := h
    exact .cons hy (ih ys hys)

/-- **C57 (several thresholds).** The one-pass search for several thresholds gives, threshold by
threshold, what the search for that threshold alone gives. -/
theorem batch_eq_single [FloorRing F] (fit : Fit F) (fuel : Nat) (sky : Sky F) (disabled : Bool)
    (thrs : List F) (cfg : Config F) (a b : F) (rs : List (List (LabeledCrossing F)))
    (h : dailyCrossingsBatch fit fuel sky disabled thrs cfg a b = some rs) :
    List.Forall₂ (fun thr r => dailyCrossings fit fuel sky disabled thr cfg a b = some r) thrs rs := by
  unfold dailyCrossingsBatch at h
  split at h
  · rename_i he
    cases h
    rw [List.isEmpty_iff.mp he]; exact .nil
  split at h
  · rename_i hab
    cases h
    rw [List.forall₂_map_right_iff, List.forall₂_same]
    intro thr _
    unfold dailyCrossings
    rw [if_pos hab]
  rename_i hab
  split at h
  · exact mapM_forall₂ _ _ h
  · rename_i hc
    have hbase : cfg.forceScanBaseline = false := by simp_all
    have hdis : disabled = false := by simp_all
    rw [Option.bind_eq_some_iff] at h
    obtain ⟨days, hd, h⟩ := h
    rw [Option.map_eq_some_iff] at h
    obtain ⟨acc, hacc, rfl⟩ := h
    obtain ⟨ls, f, rfl⟩ := batchLoop_spec days _ acc (by simp) hacc
    have hz : List.zipWith (· ++ ·) (thrs.map fun _ => ([] : List (LabeledCrossing F))) ls = ls := by
      exact zip_nil_left ls thrs f.length_eq.symm
    rw [hz, List.forall₂_map_right_iff]
    refine f.imp fun thr l hl => ?_
    unfold dailyCrossings
    rw [if_neg hab, hbase, hdis]
    simp only [Bool.false_eq_true, if_false]
    rw [hd]
    show (allDays fit fuel sky thr cfg a b days).map sortAndDedup = _
    rw [hl]; rfl

/-! ### Concrete skies -/

/-- A short winter day (latitude 64.3° north, declination -23.6°): noon at `60000.5`, Sun up for one
hour and a half before and after it. -/
def shortDay : Sky ℚ where
  precise t := 1 / 16 - |t - 60000 - 1 / 2|
  fast t := 1 / 16 - |t - 60000 - 1 / 2|
  sinLat := 9011 / 10000
  cosLat := 4334 / 10000
  ephem _ := some ⟨-4 / 10, 9 / 10, 0⟩
  arc _ := 1 / 16
  swing _ := 24 / 10

/-- The first midnight dip of the Sun at the beginning of the polar day (latitude 70° north): the
declination of the first day still allows a setting, the one of the next day does not. The Sun is
below the horizon for 21 minutes on either side of midnight `60001`. -/
def polarDay : Sky ℚ where
  precise t := |t - 60001| - 1 / 69
  fast t := |t - 60001| - 1 / 69
  sinLat := 9397 / 10000
  cosLat := 3420 / 10000
  ephem t := if t < 60001 then some ⟨3389 / 10000, 9408 / 10000, 0⟩
    else some ⟨3426 / 10000, 9395 / 10000, 0⟩
  arc _ := 1 / 2 - 1 / 69
  swing _ := 1

/-- A short summer night at the same place: the Sun is below the horizon for one hour and a half before
and after midnight `60001`. -/
def shortNight : Sky ℚ where
  precise t := |t - 60001| - 1 / 16
  fast t := |t - 60001| - 1 / 16
  sinLat := 9011 / 10000
  cosLat := 4334 / 10000
  ephem _ := some ⟨4 / 10, 9 / 10, 0⟩
  arc _ := 7 / 16
  swing _ := 24 / 10

def noFit : Fit ℚ := fun _ _ _ _ _ => none

/-- The configuration that the library uses by default. -/
def defaults : Config ℚ := Config.ofPublic (1 / 10 ^ 9)

/-- The search, when the crossings of the days already come in order (for the examples). -/
theorem daily_of_sorted [FloorRing F] {fit : Fit F} {fuel : Nat} {sky : Sky F} {thr : F}
    {cfg : Config F} {a b : F} {days : List F} {raw : List (LabeledCrossing F)} (hab : a < b)
    (hbase : cfg.forceScanBaseline = false) (hd : eventDays fuel a b = some days)
    (hraw : allDays fit fuel sky thr cfg a b days = some raw)
    (hsorted : raw.Pairwise (fun u v => u.t ≤ v.t)) :
    dailyCrossings fit fuel sky false thr cfg a b = some
      (Verif.Event.dedupBy (fun u v => decide (|u.t - v.t| < dedupeEps)) raw) := by
  unfold dailyCrossings
  rw [if_neg (not_le.mpr hab), hbase, hd]
  simp only [Bool.false_eq_true, if_false]
  show (allDays fit fuel sky thr cfg a b days).map sortAndDedup = _
  rw [hraw]
  unfold sortAndDedup
  rw [Option.map_some, List.mergeSort_of_pairwise]
  exact hsorted.imp fun h => by simpa using h

/-- A day with both crossings in the window: sunrise and sunset are found and labelled. -/
theorem short_day_found :
    dailyCrossings noFit 50 shortDay false 0 defaults (60000 + 1 / 4) (60000 + 3 / 4) =
      some [⟨60000 + 7 / 16, 1⟩, ⟨60000 + 9 / 16, -1⟩] := by
  rw [daily_of_sorted (days := [59999, 60000, 60001])
    (raw := [⟨60000 + 7 / 16, 1⟩, ⟨60000 + 9 / 16, -1⟩]) (by norm_num) rfl (by decide +kernel)
    (by decide +kernel) (by decide +kernel)]
  decide +kernel

/-- The hypotheses of `solar_crossings_genuine` and `candidate_answered` hold for that day. -/
example : Fine (60000 + 1 / 4) (60000 + 3 / 4) defaults.timeTolerance ∧
    eventDays 50 (60000 + 1 / 4 : ℚ) (60000 + 3 / 4) = some [59999, 60000, 60001] ∧
    (∀ d ∈ [59999, 60000, 60001],
      (influence (60000 + 1 / 4 : ℚ) (60000 + 3 / 4) d).1 <
        (influence (60000 + 1 / 4 : ℚ) (60000 + 3 / 4) d).2 →
      Grained defaults (influence (60000 + 1 / 4 : ℚ) (60000 + 3 / 4) d).1
        (influence (60000 + 1 / 4 : ℚ) (60000 + 3 / 4) d).2) := by
  refine ⟨?_, by decide +kernel, ?_⟩
  · intro x h1 h2
    rw [abs_of_nonneg (by linarith)]
    unfold defaults Config.ofPublic machineEps
    norm_num
    linarith
  · intro d hd _
    have key : ∀ p q : ℚ, q - p ≤ 1 / 2 → (1 : ℚ) / 2 ^ 52 < q - p → Grained defaults p q := by
      intro p q h1 h2
      refine ⟨by norm_num [defaults, Config.ofPublic], fun k hk => ?_⟩
      have hs : defaults.segmentLength = (1 / 2 : ℚ) := rfl
      rw [hs] at hk ⊢
      have hk0 : k = 0 := by
        by_contra hne
        have : (1 : ℚ) ≤ k := by exact_mod_cast Nat.one_le_iff_ne_zero.mpr hne
        linarith
      subst hk0
      push_cast
      linarith
    simp only [List.mem_cons, List.not_mem_nil, or_false] at hd
    rcases hd with rfl | rfl | rfl <;> apply key <;> decide +kernel

example : ∃ s, dailyState shortDay 60000 = some s ∧
    dayCase shortDay s 0 = .crossings (36044 / 39006) ∧
    60000 ≤ s.transit ∧ s.transit ≤ 60000 + 1 ∧ (candidates shortDay s (36044 / 39006)).length = 2 := by
  refine ⟨⟨-4 / 10, 9 / 10, 60000 + 1 / 2⟩, ?_, ?_, by norm_num, by norm_num, rfl⟩
  · norm_num [dailyState, transitOf, shortDay]
  · norm_num [dayCase, shortDay, grazeEps, abs_lt]

example : ∃ rs, dailyCrossingsBatch noFit 50 shortDay false [0, 0] defaults (60000 + 1 / 4)
    (60000 + 3 / 4) = some rs ∧ rs.map List.length = [2, 2] := by
  have h : ∃ acc, batchLoop noFit 50 shortDay defaults (60000 + 1 / 4) (60000 + 3 / 4) [0, 0]
      [59999, 60000, 60001] [[], []] = some acc ∧
      acc = [[⟨60000 + 7 / 16, 1⟩, ⟨60000 + 9 / 16, -1⟩], [⟨60000 + 7 / 16, 1⟩, ⟨60000 + 9 / 16, -1⟩]] :=
    ⟨_, by decide +kernel, rfl⟩
  obtain ⟨acc, hacc, rfl⟩ := h
  refine ⟨[sortAndDedup [⟨60000 + 7 / 16, 1⟩, ⟨60000 + 9 / 16, -1⟩],
    sortAndDedup [⟨60000 + 7 / 16, 1⟩, ⟨60000 + 9 / 16, -1⟩]], ?_, ?_⟩
  · unfold dailyCrossingsBatch
    rw [if_neg (by decide), if_neg (by norm_num), if_neg (by decide),
      show eventDays 50 (60000 + 1 / 4 : ℚ) (60000 + 3 / 4) = some [59999, 60000, 60001] by decide +kernel]
    show (batchLoop noFit 50 shortDay defaults (60000 + 1 / 4) (60000 + 3 / 4) [0, 0]
      [59999, 60000, 60001] [[], []]).map _ = _
    rw [hacc]
    rfl
  · unfold sortAndDedup
    rw [List.mergeSort_of_pairwise (by decide +kernel)]
    decide +kernel

/-! ### Where the property fails -/

/-- **C57 fails: a sunset reported as a sunrise.** The query window begins twelve minutes after noon on
the short day. The sunrise predicted before the window is still within the guard of four hours, its
bracket is clipped to the beginning of the window and reaches past the sunset; the sunset is found for
it, labelled with the predicted direction, and survives the removal of duplicates. So the only
crossing of the window, where the Sun passes downwards, is reported as rising, and the Sun is reported
above the horizon from the sunset on, and not before. -/
theorem sunset_reported_as_sunrise :
    dailyCrossings noFit 50 shortDay false 0 defaults (60000 + 1 / 2 + 1 / 120) (60000 + 3 / 4) =
      some [⟨60000 + 9 / 16, 1⟩] ∧
    (∀ t : ℚ, 60000 + 1 / 2 + 1 / 120 ≤ t → t ≤ 60000 + 3 / 4 →
      (0 < shortDay.precise t ↔ t < 60000 + 9 / 16)) ∧
    solarAbove noFit 50 shortDay false 0 defaults (60000 + 1 / 2 + 1 / 120) (60000 + 3 / 4) =
      some [(60000 + 9 / 16, 60000 + 3 / 4)] := by
  have hd : dailyCrossings noFit 50 shortDay false 0 defaults (60000 + 1 / 2 + 1 / 120)
      (60000 + 3 / 4) = some [⟨60000 + 9 / 16, 1⟩] := by
    rw [daily_of_sorted (days := [59999, 60000, 60001])
      (raw := [⟨60000 + 9 / 16, 1⟩, ⟨60000 + 9 / 16, -1⟩]) (by norm_num) rfl (by decide +kernel)
      (by decide +kernel) (by decide +kernel)]
    decide +kernel
  refine ⟨hd, fun t h1 h2 => ?_, ?_⟩
  rotate_left
  · unfold solarAbove
    rw [hd]
    decide +kernel
  unfold shortDay
  dsimp only
  rw [abs_of_nonneg (by linarith)]
  constructor <;> intro h <;> linarith

/-- **C57 fails: a sunrise reported as a sunset.** The query window begins twelve minutes after midnight
in the short night. The setting predicted for the evening before is within the guard; the sunrise is
found for it and reported as a setting, and no period above the horizon is reported although the Sun
is up from the sunrise to the end of the window at noon. -/
theorem sunrise_reported_as_sunset :
    dailyCrossings noFit 50 shortNight false 0 defaults (60001 + 1 / 120) (60001 + 1 / 2) =
      some [⟨60001 + 1 / 16, -1⟩] ∧
    (∀ t : ℚ, 60001 + 1 / 120 ≤ t → t ≤ 60001 + 1 / 2 →
      (0 < shortNight.precise t ↔ 60001 + 1 / 16 < t)) ∧
    solarAbove noFit 50 shortNight false 0 defaults (60001 + 1 / 120) (60001 + 1 / 2) = some [] := by
  have hd : dailyCrossings noFit 50 shortNight false 0 defaults (60001 + 1 / 120)
      (60001 + 1 / 2) = some [⟨60001 + 1 / 16, -1⟩] := by
    rw [daily_of_sorted (days := [60000, 60001, 60002])
      (raw := [⟨60001 + 1 / 16, -1⟩, ⟨60001 + 1 / 16, 1⟩]) (by norm_num) rfl (by decide +kernel)
      (by decide +kernel) (by decide +kernel)]
    decide +kernel
  refine ⟨hd, fun t h1 h2 => ?_, ?_⟩
  rotate_left
  · unfold solarAbove
    rw [hd]
    decide +kernel
  unfold shortNight
  dsimp only
  rw [abs_of_nonneg (by linarith)]
  constructor <;> intro h <;> linarith

/-- **C57 fails: the Sun that rises again at the beginning of the polar day is lost.** The setting
before the midnight dip is found by the first day; the rising after it belongs to the next day, whose
model knows no crossing, and that is accepted after three samples (three successive noons). The
answer holds a setting and no rising, and the Sun is reported below the horizon for the rest of the
window, where it never is after 21 minutes past midnight. -/
theorem polar_day_reported_as_night :
    dailyCrossings noFit 50 polarDay false 0 defaults (60000 + 1 / 2) (60003 + 1 / 2) =
      some [⟨60001 - 1 / 69, -1⟩] ∧
    (∀ t : ℚ, 60001 + 1 / 69 < t → 0 < polarDay.precise t) ∧
    solarAbove noFit 50 polarDay false 0 defaults (60000 + 1 / 2) (60003 + 1 / 2) =
      some [(60000 + 1 / 2, 60001 - 1 / 69)] := by
  refine ⟨by decide +kernel, fun t h1 => ?_, by decide +kernel⟩
  unfold polarDay
  dsimp only
  rw [abs_of_nonneg (by linarith)]
  linarith

/-- A day without predicted crossing is accepted on three samples alone, whatever the Sun does between
them. -/
theorem no_crossing_day_sees_three_samples (fit : Fit F) (fuel : Nat) (sky : Sky F) (thr : F)
    (cfg : Config F) (a b day : F) (s : DayState F) (hs : dailyState sky day = some s)
    (hcase : dayCase sky s thr = .alwaysAbove)
    (hw : (influence a b day).1 < (influence a b day).2)
    (h3 : ∀ t ∈ [(influence a b day).1, ((influence a b day).1 + (influence a b day).2) / 2,
      (influence a b day).2], thr + 10 * max cfg.maxResidual (1 / 10 ^ 12) < sky.precise t) :
    dayCrossings fit fuel sky thr cfg a b day = some [] := by
  unfold dayCrossings
  rw [hs]
  dsimp only
  unfold predictDay
  dsimp only
  rw [hcase]
  dsimp only
  rw [if_pos]
  unfold acceptNoCrossing
  rw [if_neg (not_le.mpr hw), List.all_eq_true]
  intro t ht
  have h := h3 t ht
  have hp := residualTol_pos cfg
  have hr : residualTol cfg = max cfg.maxResidual (1 / 10 ^ 12) := rfl
  rw [← hr] at h
  have h1 : ¬ |sky.precise t - thr| ≤ residualTol cfg * 10 := by
    rw [not_le, abs_of_pos (by linarith)]; linarith
  have h2 : ¬ sky.precise t - thr < 0 := by rw [not_lt]; linarith
  simp [h1, h2]

/-- An empty window: the Sun above the threshold gives one period from its start to its end (backwards
if the window is), where the generic search gives none. -/
theorem empty_window_gives_period [FloorRing F] (fit : Fit F) (fuel : Nat) (sky : Sky F)
    (disabled : Bool) (thr : F) (cfg : Config F) (a b : F) (hab : b ≤ a) (h : thr < sky.precise a) :
    solarAbove fit fuel sky disabled thr cfg a b = some [(a, b)] := by
  unfold solarAbove dailyCrossings
  rw [if_pos hab]
  simp [buildAbovePeriodsDirected, h]

end Verif.Solar.Props
