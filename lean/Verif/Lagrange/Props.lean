import Verif.Lagrange.FrameProps

/-
Claim C147: Chebyshev records and their fit. The claims C145 and C146 are in `Solver` and `FrameProps`.
-/
namespace Verif.Lagrange.Props
open Verif.Lagrange Classical

/-! ### Records -/

/-- A record: the middle and the half of a span of time in seconds, and three lists of coefficients. -/
structure Block where
  mid : ℝ
  rad : ℝ
  cx : List ℝ
  cy : List ℝ
  cz : List ℝ

def Block.flat (b : Block) : List ℝ := b.mid :: b.rad :: (b.cx ++ (b.cy ++ b.cz))
def Block.Order (n : Nat) (b : Block) : Prop := b.cx.length = n ∧ b.cy.length = n ∧ b.cz.length = n
def Block.Covers (b : Block) (s : ℝ) : Prop := b.mid - b.rad ≤ s ∧ s ≤ b.mid + b.rad
/-- The position of a record, in astronomical units. -/
noncomputable def Block.at (cheb : List ℝ → ℝ → ℝ) (au : ℝ) (b : Block) (s : ℝ) : V :=
  ![cheb b.cx ((s - b.mid) / b.rad) / au, cheb b.cy ((s - b.mid) / b.rad) / au, cheb b.cz ((s - b.mid) / b.rad) / au]

theorem flat_length {n : Nat} {b : Block} (h : b.Order n) : b.flat.length = 2 + 3 * n := by
  obtain ⟨h1, h2, h3⟩ := h
  simp only [Block.flat, List.length_cons, List.length_append, h1, h2, h3]
  omega

theorem chunksGo_flat {n : Nat} (bs : List Block) (h : ∀ b ∈ bs, b.Order n) : ∀ fuel, bs.length ≤ fuel →
    chunksGo (2 + 3 * n) fuel (bs.flatMap Block.flat) = bs.map Block.flat := by
  induction bs with
  | nil =>
    intro fuel _
    cases fuel with
    | zero => rfl
    | succ f => rw [List.flatMap_nil, chunksGo, if_neg (by simp)]; rfl
  | cons b bs ih =>
    intro fuel hf
    cases fuel with
    | zero => simp at hf
    | succ f =>
      have hl := flat_length (h b (by simp))
      rw [List.flatMap_cons, chunksGo, if_pos (by rw [List.length_append]; omega), List.take_left' hl, List.drop_left' hl,
        ih (fun x hx => h x (by simp [hx])) f (by simpa using hf)]
      rfl

theorem flat_total {n : Nat} (bs : List Block) (h : ∀ b ∈ bs, b.Order n) : (bs.flatMap Block.flat).length = bs.length * (2 + 3 * n) := by
  induction bs with
  | nil => simp
  | cons b bs ih =>
    rw [List.flatMap_cons, List.length_append, flat_length (h b (by simp)), ih (fun x hx => h x (by simp [hx])), List.length_cons]
    ring

theorem chunks_flat {n : Nat} (bs : List Block) (h : ∀ b ∈ bs, b.Order n) : chunks (2 + 3 * n) (bs.flatMap Block.flat) = bs.map Block.flat := by
  unfold chunks
  apply chunksGo_flat bs h
  rw [flat_total bs h]
  nlinarith

theorem evalRecord_flat {n : Nat} {b : Block} (h : b.Order n) (cheb : List ℝ → ℝ → ℝ) (au s : ℝ) : evalRecord cheb au n b.flat s = b.at cheb au s := by
  obtain ⟨h1, h2, h3⟩ := h
  have e1 : (b.flat.drop 2).take n = b.cx := by
    show (b.cx ++ (b.cy ++ b.cz)).take n = b.cx
    rw [List.take_left' h1]
  have e2 : (b.flat.drop (2 + n)).take n = b.cy := by
    rw [← List.drop_drop]
    show ((b.cx ++ (b.cy ++ b.cz)).drop n).take n = b.cy
    rw [List.drop_left' h1, List.take_left' h2]
  have e3 : (b.flat.drop (2 + 2 * n)).take n = b.cz := by
    rw [show 2 + 2 * n = 2 + n + n by ring, ← List.drop_drop, ← List.drop_drop]
    show (((b.cx ++ (b.cy ++ b.cz)).drop n).drop n).take n = b.cz
    rw [List.drop_left' h1, List.drop_left' h2, ← h3, List.take_length]
  unfold evalRecord Block.at
  dsimp only
  rw [e1, e2, e3]
  rfl

theorem scan_hit {cheb : List ℝ → ℝ → ℝ} {au : ℝ} {n : Nat} {s : ℝ} {p : List Block} : ∀ {f l : Option ℝ} {b : Block} {q : List Block},
    (∀ x ∈ p, ¬ x.Covers s) → b.Covers s → b.Order n →
    scan cheb au n s ((p ++ b :: q).map Block.flat) f l = .ok (b.at cheb au s) := by
  induction p with
  | nil =>
    intro f l b q _ hb ho
    rw [List.nil_append, List.map_cons, scan]
    rw [if_pos (by exact hb), evalRecord_flat ho]
  | cons x p ih =>
    intro f l b q hp hb ho
    rw [List.cons_append, List.map_cons, scan]
    rw [if_neg (by exact hp x (by simp))]
    exact ih (fun y hy => hp y (by simp [hy])) hb ho

theorem scan_miss {cheb : List ℝ → ℝ → ℝ} {au : ℝ} {n : Nat} {s : ℝ} (bs : List Block) : ∀ (f l : Option ℝ), (∀ x ∈ bs, ¬ x.Covers s) →
    ∃ f' l', scan cheb au n s (bs.map Block.flat) f l = .error (f', l') ∧
      (∀ a, f' = some a → (f = some a ∨ ∃ b ∈ bs, b.mid - b.rad = a) ∧ (∀ v, f = some v → a ≤ v) ∧ ∀ b ∈ bs, a ≤ b.mid - b.rad) ∧
      (∀ a, l' = some a → (l = some a ∨ ∃ b ∈ bs, b.mid + b.rad = a) ∧ (∀ v, l = some v → v ≤ a) ∧ ∀ b ∈ bs, b.mid + b.rad ≤ a) ∧
      ((f ≠ none ∨ bs ≠ []) → f' ≠ none) ∧ ((l ≠ none ∨ bs ≠ []) → l' ≠ none) := by
  induction bs with
  | nil =>
    intro f l _
    refine ⟨f, l, rfl, ?_, ?_, ?_, ?_⟩
    · intro a h; exact ⟨Or.inl h, fun v hv => by rw [h] at hv; cases hv; exact le_rfl, fun b hb => by cases hb⟩
    · intro a h; exact ⟨Or.inl h, fun v hv => by rw [h] at hv; cases hv; exact le_rfl, fun b hb => by cases hb⟩
    · rintro (h | h); exacts [h, absurd rfl h]
    · rintro (h | h); exacts [h, absurd rfl h]
  | cons x bs ih =>
    intro f l hx
    rw [List.map_cons, scan]
    rw [if_neg (by exact hx x (by simp))]
    have hstart : x.flat.getD 0 0 - x.flat.getD 1 0 = x.mid - x.rad := rfl
    have hstop : x.flat.getD 0 0 + x.flat.getD 1 0 = x.mid + x.rad := rfl
    rw [hstart, hstop]
    obtain ⟨f', l', e, p1, p2, p3, p4⟩ := ih (some (lower f (x.mid - x.rad)))
      (some (upper l (x.mid + x.rad))) (fun y hy => hx y (by simp [hy]))
    refine ⟨f', l', e, ?_, ?_, fun _ => p3 (Or.inl (by simp)), fun _ => p4 (Or.inl (by simp))⟩
    · intro a ha
      obtain ⟨q1, q2, q3⟩ := p1 a ha
      have q2' := q2 _ rfl
      refine ⟨?_, ?_, ?_⟩
      · rcases q1 with h | ⟨b, hb, h⟩
        · cases f with
          | none => right; exact ⟨x, by simp, Option.some.inj h⟩
          | some v =>
            have h' := Option.some.inj h
            rw [lower] at h'
            rcases min_choice v (x.mid - x.rad) with hm | hm
            · left; rw [← h', hm]
            · right; exact ⟨x, by simp, by rw [← h', hm]⟩
        · right; exact ⟨b, by simp [hb], h⟩
      · intro v hv
        subst hv
        exact q2'.trans (min_le_left _ _)
      · intro b hb
        rcases List.mem_cons.mp hb with rfl | hb
        · cases f with
          | none => exact q2'
          | some v => exact q2'.trans (min_le_right _ _)
        · exact q3 b hb
    · intro a ha
      obtain ⟨q1, q2, q3⟩ := p2 a ha
      have q2' := q2 _ rfl
      refine ⟨?_, ?_, ?_⟩
      · rcases q1 with h | ⟨b, hb, h⟩
        · cases l with
          | none => right; exact ⟨x, by simp, Option.some.inj h⟩
          | some v =>
            have h' := Option.some.inj h
            rw [upper] at h'
            rcases max_choice v (x.mid + x.rad) with hm | hm
            · left; rw [← h', hm]
            · right; exact ⟨x, by simp, by rw [← h', hm]⟩
        · right; exact ⟨b, by simp [hb], h⟩
      · intro v hv
        subst hv
        exact (le_max_left _ _).trans q2'
      · intro b hb
        rcases List.mem_cons.mp hb with rfl | hb
        · cases l with
          | none => exact q2'
          | some v => exact (le_max_right _ _).trans q2'
        · exact q3 b hb

theorem accepted {n : Nat} (hn : 0 < n) {bs : List Block} (hb : bs ≠ []) (ho : ∀ b ∈ bs, b.Order n) :
    ¬ (bs.flatMap Block.flat = [] ∨ n = 0 ∨ 2 + 3 * n = 2 ∨ (bs.flatMap Block.flat).length % (2 + 3 * n) ≠ 0) := by
  have ht := flat_total bs ho
  have hl : 0 < bs.length := List.length_pos_iff.mpr hb
  rintro (h | h | h | h)
  · rw [h] at ht
    have : 0 < bs.length * (2 + 3 * n) := by positivity
    simp only [List.length_nil] at ht
    omega
  · omega
  · omega
  · rw [ht] at h; simp at h

/-- C147. A date inside the records has the position of the first record that covers it. -/
theorem records_value (cheb : List ℝ → ℝ → ℝ) (au : ℝ) {n : Nat} (hn : 0 < n) {p q : List Block} {b : Block} (ho : ∀ x ∈ p ++ b :: q, x.Order n) {jd : ℝ}
    (hp : ∀ x ∈ p, ¬ x.Covers ((jd - 2451545) * 86400)) (hb : b.Covers ((jd - 2451545) * 86400)) :
    evaluateRecords cheb au ((p ++ b :: q).flatMap Block.flat) n jd = .ok (b.at cheb au ((jd - 2451545) * 86400)) := by
  unfold evaluateRecords
  dsimp only
  rw [if_neg (accepted hn (by simp) ho), chunks_flat _ ho, scan_hit hp hb (ho b (by simp))]

/-- C147. A date outside all records is refused, with the beginning of the earliest and the end of the latest record. -/
theorem records_outside (cheb : List ℝ → ℝ → ℝ) (au : ℝ) {n : Nat} (hn : 0 < n) {bs : List Block} (hne : bs ≠ []) (ho : ∀ x ∈ bs, x.Order n) {jd : ℝ}
    (hout : ∀ x ∈ bs, ¬ x.Covers ((jd - 2451545) * 86400)) :
    ∃ a z, evaluateRecords cheb au (bs.flatMap Block.flat) n jd = .error ⟨jd, 2451545 + a / 86400, 2451545 + z / 86400⟩ ∧
      (∃ b ∈ bs, b.mid - b.rad = a) ∧ (∀ b ∈ bs, a ≤ b.mid - b.rad) ∧ (∃ b ∈ bs, b.mid + b.rad = z) ∧ ∀ b ∈ bs, b.mid + b.rad ≤ z := by
  obtain ⟨f', l', e, p1, p2, p3, p4⟩ := scan_miss (cheb := cheb) (au := au) (n := n) bs none none hout
  obtain ⟨a, ha⟩ := Option.ne_none_iff_exists'.mp (p3 (Or.inr hne))
  obtain ⟨z, hz⟩ := Option.ne_none_iff_exists'.mp (p4 (Or.inr hne))
  obtain ⟨a1, _, a2⟩ := p1 a ha
  obtain ⟨z1, _, z2⟩ := p2 z hz
  refine ⟨a, z, ?_, by simpa using a1, a2, by simpa using z1, z2⟩
  unfold evaluateRecords
  dsimp only
  rw [if_neg (accepted hn hne ho), chunks_flat _ ho, e, ha, hz]
  rfl

/-- C147. Records that cannot be cut into whole ones are refused. -/
theorem records_malformed (cheb : List ℝ → ℝ → ℝ) (au : ℝ) {records : List ℝ} {n : Nat} (h : records = [] ∨ n = 0 ∨ ¬ (2 + 3 * n) ∣ records.length) (jd : ℝ) :
    ∃ e, evaluateRecords cheb au records n jd = .error e ∧ e.jd = jd := by
  unfold evaluateRecords
  dsimp only
  rw [if_pos]
  · exact ⟨_, rfl, rfl⟩
  · rcases h with h | h | h
    · exact Or.inl h
    · exact Or.inr (Or.inl h)
    · exact Or.inr (Or.inr (Or.inr (fun e => h (Nat.dvd_of_mod_eq_zero e))))

/-! ### Fits -/

/-- What is expected of the crate `cheby`. -/
structure Contract (ch : Cheby) (n : Nat) : Prop where
  count : (ch.nodes n).length = n
  inside : ∀ x ∈ ch.nodes n, -1 < x ∧ x < 1
  order : ∀ xs : List ℝ, xs.length = n → (ch.fit xs).length = n
  through : ∀ xs : List ℝ, xs.length = n → ∀ (i : Nat) (x v : ℝ), (ch.nodes n)[i]? = some x → xs[i]? = some v → ch.eval (ch.fit xs) x = v

/-- A record fitted to the positions at its nodes. -/
def Made (ch : Cheby) (sol : ℝ → Option V) (n : Nat) (b : Block) : Prop :=
  ∃ ps, List.Forall₂ (fun x p => sol (jdOf (b.mid + b.rad * x)) = some p) (ch.nodes n) ps ∧
    b.cx = ch.fit (ps.map (· 0)) ∧ b.cy = ch.fit (ps.map (· 1)) ∧ b.cz = ch.fit (ps.map (· 2))

/-- Records one after another from `start` to `stop`, none longer than a block. -/
inductive Chain (ch : Cheby) (sol : ℝ → Option V) (n : Nat) (block stop : ℝ) : ℝ → List Block → Prop
  | nil {start} : stop ≤ start → Chain ch sol n block stop start []
  | cons {start b bs} : b.mid - b.rad = start → 0 < b.rad → 2 * b.rad ≤ block → b.mid + b.rad ≤ stop → Made ch sol n b →
      Chain ch sol n block stop (b.mid + b.rad) bs → Chain ch sol n block stop start (b :: bs)

theorem samples_spec {sol : ℝ → Option V} {mid radius : ℝ} (ns : List ℝ) : ∀ {ps}, samples sol mid radius ns = some ps →
    List.Forall₂ (fun x p => sol (jdOf (mid + radius * x)) = some p) ns ps := by
  induction ns with
  | nil => intro ps h; cases h; exact .nil
  | cons x ns ih =>
    intro ps h
    rw [samples] at h
    cases hs : sol (jdOf (mid + radius * x)) with
    | none => rw [hs] at h; cases h
    | some p =>
      rw [hs] at h
      dsimp only at h
      rw [Option.map_eq_some_iff] at h
      obtain ⟨qs, hq, rfl⟩ := h
      exact .cons hs (ih hq)

theorem made_order {ch : Cheby} {sol : ℝ → Option V} {n : Nat} (hc : Contract ch n) {b : Block} (h : Made ch sol n b) : b.Order n := by
  obtain ⟨ps, hf, h1, h2, h3⟩ := h
  have hl : ps.length = n := by rw [← hf.length_eq, hc.count]
  refine ⟨?_, ?_, ?_⟩
  · rw [h1]; exact hc.order _ (by rw [List.length_map, hl])
  · rw [h2]; exact hc.order _ (by rw [List.length_map, hl])
  · rw [h3]; exact hc.order _ (by rw [List.length_map, hl])

theorem fitBlocks_spec {ch : Cheby} {sol : ℝ → Option V} {n : Nat} {block stop : ℝ} (hb : 0 < block) (fuel : Nat) : ∀ {start : ℝ} {recs : List ℝ},
    stop - start ≤ fuel * block → fitBlocks ch sol n block stop fuel start = .ok recs →
    ∃ bs, recs = bs.flatMap Block.flat ∧ Chain ch sol n block stop start bs := by
  induction fuel with
  | zero =>
    intro start recs hf h
    cases h
    exact ⟨[], rfl, .nil (by simpa using hf)⟩
  | succ fuel ih =>
    intro start recs hf h
    rw [fitBlocks] at h
    by_cases hlt : start < stop
    · rw [if_pos hlt] at h
      dsimp only at h
      set fin := min (start + block) stop with hfin
      have hfin1 : start < fin := lt_min (by linarith) hlt
      cases hs : samples sol ((1 / 2) * (start + fin)) ((1 / 2) * (fin - start)) (ch.nodes n) with
      | none => rw [hs] at h; cases h
      | some ps =>
        rw [hs] at h
        dsimp only at h
        cases hr : fitBlocks ch sol n block stop fuel fin with
        | error e => rw [hr] at h; cases h
        | ok rest =>
          rw [hr] at h
          dsimp only at h
          have hfuel : stop - fin ≤ fuel * block := by
            rcases min_choice (start + block) stop with hm | hm
            · rw [hfin, hm]; push_cast at hf; linarith
            · rw [hfin, hm, sub_self]; positivity
          obtain ⟨bs, e, hc⟩ := ih hfuel hr
          have hmr : (1 / 2) * (start + fin) + (1 / 2) * (fin - start) = fin := by ring
          refine ⟨⟨(1 / 2) * (start + fin), (1 / 2) * (fin - start), ch.fit (ps.map (· 0)), ch.fit (ps.map (· 1)), ch.fit (ps.map (· 2))⟩ :: bs, ?_, ?_⟩
          · rw [← Except.ok.inj h, e, List.flatMap_cons]
            simp [Block.flat]
          · refine .cons (by dsimp only; ring) (by dsimp only; linarith) ?_ ?_ ⟨ps, samples_spec _ hs, rfl, rfl, rfl⟩ ?_
            · dsimp only
              have : fin ≤ start + block := min_le_left _ _
              linarith
            · dsimp only; rw [hmr]; exact min_le_right _ _
            · dsimp only; rw [hmr]; exact hc
    · rw [if_neg hlt] at h
      cases h
      exact ⟨[], rfl, .nil (not_lt.mp hlt)⟩

theorem chain_made {ch : Cheby} {sol : ℝ → Option V} {n : Nat} {block stop start : ℝ} {bs : List Block} (h : Chain ch sol n block stop start bs) :
    ∀ b ∈ bs, Made ch sol n b ∧ start ≤ b.mid - b.rad ∧ 0 < b.rad ∧ 2 * b.rad ≤ block ∧ b.mid + b.rad ≤ stop := by
  induction h with
  | nil _ => intro b hb; cases hb
  | cons h1 h2 h3 h4 h5 _ ih =>
    intro x hx
    rcases List.mem_cons.mp hx with rfl | hx
    · exact ⟨h5, le_of_eq h1.symm, h2, h3, h4⟩
    · obtain ⟨q1, q2, q3⟩ := ih x hx
      exact ⟨q1, by linarith, q3⟩

theorem chain_covers {ch : Cheby} {sol : ℝ → Option V} {n : Nat} {block stop start : ℝ} {bs : List Block} (h : Chain ch sol n block stop start bs) :
    ∀ {s : ℝ}, start < stop → start ≤ s → s ≤ stop → ∃ p b q, bs = p ++ b :: q ∧ b.Covers s ∧ ∀ x ∈ p, ¬ x.Covers s := by
  induction h with
  | nil h => intro s h1 _ _; linarith
  | @cons start b bs h1 h2 h3 h4 h5 hch ih =>
    intro s hlt hs1 hs2
    by_cases hc : s ≤ b.mid + b.rad
    · exact ⟨[], b, bs, rfl, ⟨by linarith, hc⟩, fun x hx => by cases hx⟩
    · push Not at hc
      obtain ⟨p, b', q, e, hb', hp⟩ := ih (by linarith) (le_of_lt hc) hs2
      refine ⟨b :: p, b', q, by rw [e]; rfl, hb', ?_⟩
      intro x hx
      rcases List.mem_cons.mp hx with rfl | hx
      · intro hcov; exact absurd hcov.2 (not_le.mpr hc)
      · exact hp x hx

theorem chain_before {ch : Cheby} {sol : ℝ → Option V} {n : Nat} {block stop start : ℝ} {bs : List Block} (h : Chain ch sol n block stop start bs) :
    ∀ {p : List Block} {b : Block} {q : List Block}, bs = p ++ b :: q → ∀ x ∈ p, x.mid + x.rad ≤ b.mid - b.rad := by
  induction h with
  | nil h => intro p b q e; simp at e
  | @cons start b0 bs h1 h2 h3 h4 h5 hch ih =>
    intro p b q e x hx
    cases p with
    | nil => cases hx
    | cons y p =>
      obtain ⟨rfl, e'⟩ := List.cons.inj e
      rcases List.mem_cons.mp hx with rfl | hx
      · exact (chain_made hch b (by rw [e']; simp)).2.1
      · exact ih e' x hx

theorem seconds_jd (s : ℝ) : (jdOf s - 2451545) * 86400 = s := by unfold jdOf; ring

/-- C147. The records of a fit follow one another without gaps: every date of the interval has a position. -/
theorem fit_covers {ch : Cheby} {sol : ℝ → Option V} {n : Nat} (hn : 0 < n) (hc : Contract ch n) {au block start stop : ℝ} (hb : 0 < block) (hlt : start < stop)
    {fuel : Nat} (hf : stop - start ≤ fuel * block) {recs : List ℝ} (h : fitBlocks ch sol n block stop fuel start = .ok recs) {s : ℝ} (h1 : start ≤ s) (h2 : s ≤ stop) :
    ∃ v, evaluateRecords ch.eval au recs n (jdOf s) = .ok v := by
  obtain ⟨bs, rfl, hch⟩ := fitBlocks_spec hb fuel hf h
  obtain ⟨p, b, q, rfl, hcov, hp⟩ := chain_covers hch hlt h1 h2
  have ho : ∀ x ∈ p ++ b :: q, x.Order n := fun x hx => made_order hc (chain_made hch x hx).1
  refine ⟨_, records_value ch.eval au hn ho ?_ ?_⟩
  · rw [seconds_jd]; exact hp
  · rw [seconds_jd]; exact hcov

/-- C147. Dates outside the interval are refused. -/
theorem fit_refuses {ch : Cheby} {sol : ℝ → Option V} {n : Nat} (hn : 0 < n) (hc : Contract ch n) {au block start stop : ℝ} (hb : 0 < block) (hlt : start < stop)
    {fuel : Nat} (hf : stop - start ≤ fuel * block) {recs : List ℝ} (h : fitBlocks ch sol n block stop fuel start = .ok recs) {s : ℝ} (hs : s < start ∨ stop < s) :
    ∃ e, evaluateRecords ch.eval au recs n (jdOf s) = .error e := by
  obtain ⟨bs, rfl, hch⟩ := fitBlocks_spec hb fuel hf h
  have hne : bs ≠ [] := by
    rintro rfl
    cases hch
    linarith
  have ho : ∀ x ∈ bs, x.Order n := fun x hx => made_order hc (chain_made hch x hx).1
  obtain ⟨a, z, e, _⟩ := records_outside ch.eval au hn hne ho (jd := jdOf s) (by
    rw [seconds_jd]
    intro x hx hcov
    obtain ⟨_, q1, _, _, q2⟩ := chain_made hch x hx
    rcases hs with h | h
    · linarith [hcov.1]
    · linarith [hcov.2])
  exact ⟨_, e⟩

theorem forall₂_get {α β : Type} {R : α → β → Prop} {xs : List α} {ys : List β} (h : List.Forall₂ R xs ys) {x : α} (hx : x ∈ xs) :
    ∃ (i : Nat) (y : β), xs[i]? = some x ∧ ys[i]? = some y ∧ R x y := by
  induction h with
  | nil => cases hx
  | cons hr _ ih =>
    rcases List.mem_cons.mp hx with rfl | hx
    · exact ⟨0, _, rfl, rfl, hr⟩
    · obtain ⟨i, y, h1, h2, h3⟩ := ih hx
      exact ⟨i + 1, y, h1, h2, h3⟩

/-- C147. At the nodes of its records the fit gives the positions of the solver. -/
theorem fit_through_nodes {ch : Cheby} {sol : ℝ → Option V} {n : Nat} (hn : 0 < n) (hc : Contract ch n) {au block start stop : ℝ} (hau : au ≠ 0) (hb : 0 < block)
    {fuel : Nat} (hf : stop - start ≤ fuel * block) {recs : List ℝ} (h : fitBlocks ch sol n block stop fuel start = .ok recs) :
    ∃ bs : List Block, recs = bs.flatMap Block.flat ∧ ∀ b ∈ bs, ∀ x ∈ ch.nodes n, ∃ truth v, sol (jdOf (b.mid + b.rad * x)) = some truth ∧
      evaluateRecords ch.eval au recs n (jdOf (b.mid + b.rad * x)) = .ok v ∧ au • v = truth := by
  obtain ⟨bs, rfl, hch⟩ := fitBlocks_spec hb fuel hf h
  refine ⟨bs, rfl, ?_⟩
  intro b hbm x hx
  obtain ⟨⟨ps, hps, c1, c2, c3⟩, _, hr, _, _⟩ := chain_made hch b hbm
  obtain ⟨i, truth, hi1, hi2, hsol⟩ := forall₂_get hps hx
  obtain ⟨x1, x2⟩ := hc.inside x hx
  obtain ⟨p, q, rfl⟩ := List.append_of_mem hbm
  have ho : ∀ y ∈ p ++ b :: q, y.Order n := fun y hy => made_order hc (chain_made hch y hy).1
  have hval := records_value ch.eval au hn ho (jd := jdOf (b.mid + b.rad * x)) (by
      rw [seconds_jd]
      intro y hy hcov
      have := chain_before hch rfl y hy
      have := hcov.2
      nlinarith) (by
      rw [seconds_jd]
      constructor <;> nlinarith)
  refine ⟨truth, _, hsol, hval, ?_⟩
  rw [seconds_jd]
  have htau : (b.mid + b.rad * x - b.mid) / b.rad = x := by field_simp; ring
  have hl : ps.length = n := by rw [← hps.length_eq, hc.count]
  have key : ∀ k : Fin 3, ch.eval (ch.fit (ps.map (· k))) x = truth k := by
    intro k
    apply hc.through _ (by rw [List.length_map, hl]) i x _ hi1
    rw [List.getElem?_map, hi2]
    rfl
  unfold Block.at
  rw [htau, c1, c2, c3, key, key, key]
  funext k
  fin_cases k
  · show au * (truth 0 / au) = truth 0
    field_simp
  · show au * (truth 1 / au) = truth 1
    field_simp
  · show au * (truth 2 / au) = truth 2
    field_simp

/-! ### Validation -/

/-- The error of the records at a moment, in metres. -/
def ErrorAt (ch : Cheby) (au : ℝ) (sol : ℝ → Option V) (recs : List ℝ) (n : Nat) (s e : ℝ) : Prop :=
  ∃ truth fit, sol (jdOf s) = some truth ∧ evaluateRecords ch.eval au recs n (jdOf s) = .ok fit ∧ e = len (truth - au • fit) * 1000

/-- The errors at `s`, `s + step`, … as far as the end. -/
theorem validate_spec {ch : Cheby} {au : ℝ} {sol : ℝ → Option V} {recs : List ℝ} {n : Nat} {stop step : ℝ} (fuel : Nat) :
    ∀ {s : ℝ} {mx sq : ℝ} {cnt : Nat} {r : ℝ × ℝ × Nat}, stop + 1 / 10 ^ 9 - s < fuel * step →
    validateLoop ch au sol recs n stop step fuel s (mx, sq, cnt) = .ok r →
    ∃ errs : List ℝ, (∀ (i : Nat) (e : ℝ), errs[i]? = some e → ErrorAt ch au sol recs n (s + i * step) e) ∧
      (∀ i : Nat, 0 < step → s + i * step ≤ stop + 1 / 10 ^ 9 → i < errs.length) ∧
      r = (errs.foldl max mx, sq + (errs.map (fun e => e * e)).sum, cnt + errs.length) := by
  induction fuel with
  | zero =>
    intro s mx sq cnt r hf h
    cases h
    refine ⟨[], fun i e he => by simp at he, ?_, by simp⟩
    intro i hst hi
    have : 0 ≤ (i : ℝ) * step := by positivity
    simp only [Nat.cast_zero, zero_mul] at hf
    linarith
  | succ fuel ih =>
    intro s mx sq cnt r hf h
    rw [validateLoop] at h
    by_cases hs : s ≤ stop + 1 / 10 ^ 9
    · rw [if_pos hs] at h
      cases ht : sol (jdOf s) with
      | none => rw [ht] at h; cases h
      | some truth =>
        rw [ht] at h
        dsimp only at h
        cases hfit : evaluateRecords ch.eval au recs n (jdOf s) with
        | error e => rw [hfit] at h; cases h
        | ok fit =>
          rw [hfit] at h
          dsimp only at h
          obtain ⟨errs, h1, h2, h3⟩ := ih (by push_cast at hf; linarith) h
          refine ⟨len (truth - au • fit) * 1000 :: errs, ?_, ?_, ?_⟩
          · intro i e he
            cases i with
            | zero =>
              rw [List.getElem?_cons_zero] at he
              rw [← Option.some.inj he]
              refine ⟨truth, fit, ?_, ?_, rfl⟩
              · simpa using ht
              · simpa using hfit
            | succ i =>
              rw [List.getElem?_cons_succ] at he
              have := h1 i e he
              rw [show s + step + i * step = s + ((i + 1 : ℕ) : ℝ) * step by push_cast; ring] at this
              exact this
          · intro i hst hi
            cases i with
            | zero => simp
            | succ i =>
              have := h2 i hst (by push_cast at hi; linarith)
              simpa using this
          · rw [h3]
            simp only [List.foldl_cons, List.map_cons, List.sum_cons, List.length_cons]
            refine Prod.ext rfl (Prod.ext ?_ ?_)
            · dsimp only; ring
            · dsimp only; omega
    · rw [if_neg hs] at h
      cases h
      refine ⟨[], fun i e he => by simp at he, ?_, by simp⟩
      intro i hst hi
      have : 0 ≤ (i : ℝ) * step := by positivity
      linarith

theorem foldl_max_ge (l : List ℝ) : ∀ m, m ≤ l.foldl max m ∧ ∀ e ∈ l, e ≤ l.foldl max m := by
  induction l with
  | nil => intro m; exact ⟨le_rfl, fun e h => by cases h⟩
  | cons x l ih =>
    intro m
    obtain ⟨h1, h2⟩ := ih (max m x)
    refine ⟨(le_max_left _ _).trans h1, ?_⟩
    intro e he
    rcases List.mem_cons.mp he with rfl | he
    · exact (le_max_right _ _).trans h1
    · exact h2 e he

theorem fitOrders_ok {fit : Nat → Except FitErr Fitted} {tol : ℝ} (ns : List Nat) : ∀ {best : Option ℝ} {f : Fitted}, fitOrders fit tol ns best = .ok f →
    ∃ n ∈ ns, fit n = .ok f ∧ f.maxError ≤ tol := by
  induction ns with
  | nil => intro best f h; cases h
  | cons n ns ih =>
    intro best f h
    rw [fitOrders] at h
    cases hf : fit n with
    | error e => rw [hf] at h; cases h
    | ok g =>
      rw [hf] at h
      dsimp only at h
      split at h
      · cases h; exact ⟨n, by simp, hf, by assumption⟩
      · obtain ⟨m, hm, e⟩ := ih h
        exact ⟨m, by simp [hm], e⟩

/-- C147. A fit that is accepted is within the tolerance at every validation date, and has one of the five orders. -/
theorem fit_accepted {ch : Cheby} {au : ℝ} {sol : ℝ → Option V} {c : FitConfig} {fuel : Nat}
    (hfuel : secondsOf c.stop + 1 / 10 ^ 9 - secondsOf c.start < fuel * c.validationStep) {f : Fitted}
    (h : fitLagrange ch au sol c fuel = .ok f) :
    f.n ∈ [16, 24, 32, 40, 48] ∧ ∀ i : Nat, secondsOf c.start + i * c.validationStep ≤ secondsOf c.stop →
      ∃ e, ErrorAt ch au sol f.records f.n (secondsOf c.start + i * c.validationStep) e ∧ e ≤ c.tolerance := by
  obtain ⟨n, hn, he, htol⟩ := fitOrders_ok _ h
  unfold fitWithOrder at he
  cases hv : validConfig c with
  | false => rw [hv] at he; cases he
  | true =>
    rw [hv, if_pos rfl] at he
    unfold validConfig at hv
    rw [decide_eq_true_eq] at hv
    cases hb : fitBlocks ch sol n c.block (secondsOf c.stop) fuel (secondsOf c.start) with
    | error e => rw [hb] at he; cases he
    | ok recs =>
      rw [hb] at he
      dsimp only at he
      cases hl : validateLoop ch au sol recs n (secondsOf c.stop) c.validationStep fuel (secondsOf c.start) (0, 0, 0) with
      | error e => rw [hl] at he; cases he
      | ok r =>
        obtain ⟨mx, sq, cnt⟩ := r
        rw [hl] at he
        dsimp only at he
        obtain ⟨errs, h1, h2, h3⟩ := validate_spec fuel hfuel hl
        cases he
        refine ⟨hn, ?_⟩
        intro i hi
        have hlt := h2 i hv.2.2 (by linarith [show (0 : ℝ) < 1 / 10 ^ 9 by positivity])
        refine ⟨errs[i], h1 i _ (List.getElem?_eq_getElem hlt), ?_⟩
        have hmx : mx = errs.foldl max 0 := congrArg Prod.fst h3
        have := (foldl_max_ge errs 0).2 errs[i] (List.getElem_mem hlt)
        dsimp only at htol
        rw [hmx] at htol
        exact this.trans htol

/-- C147. The reported errors are the largest error and the root of the mean square over the validation dates. -/
theorem fit_statistics {ch : Cheby} {au : ℝ} {sol : ℝ → Option V} {c : FitConfig} {fuel n : Nat}
    (hfuel : secondsOf c.stop + 1 / 10 ^ 9 - secondsOf c.start < fuel * c.validationStep) {f : Fitted}
    (h : fitWithOrder ch au sol c fuel n = .ok f) :
    ∃ errs : List ℝ, errs ≠ [] ∧ (∀ (i : Nat) (e : ℝ), errs[i]? = some e → ErrorAt ch au sol f.records n (secondsOf c.start + i * c.validationStep) e) ∧
      (∀ e ∈ errs, e ≤ f.maxError) ∧ f.maxError ∈ errs ∧ f.rms = Real.sqrt ((errs.map (· ^ 2)).sum / errs.length) := by
  unfold fitWithOrder at h
  cases hv : validConfig c with
  | false => rw [hv] at h; cases h
  | true =>
    rw [hv, if_pos rfl] at h
    unfold validConfig at hv
    rw [decide_eq_true_eq] at hv
    cases hb : fitBlocks ch sol n c.block (secondsOf c.stop) fuel (secondsOf c.start) with
    | error e => rw [hb] at h; cases h
    | ok recs =>
      rw [hb] at h
      dsimp only at h
      cases hl : validateLoop ch au sol recs n (secondsOf c.stop) c.validationStep fuel (secondsOf c.start) (0, 0, 0) with
      | error e => rw [hl] at h; cases h
      | ok r =>
        obtain ⟨mx, sq, cnt⟩ := r
        rw [hl] at h
        dsimp only at h
        obtain ⟨errs, h1, h2, h3⟩ := validate_spec fuel hfuel hl
        cases h
        have h0 := h2 0 hv.2.2 (by simp only [Nat.cast_zero, zero_mul, add_zero]; linarith [hv.1, show (0 : ℝ) < 1 / 10 ^ 9 by positivity])
        have hne : errs ≠ [] := List.ne_nil_of_length_pos h0
        have hmx : mx = errs.foldl max 0 := congrArg Prod.fst h3
        have hsq : sq = 0 + (errs.map (fun e => e * e)).sum := congrArg (fun x => x.2.1) h3
        have hcnt : cnt = 0 + errs.length := congrArg (fun x => x.2.2) h3
        refine ⟨errs, hne, h1, ?_, ?_, ?_⟩
        · intro e he; rw [hmx]; exact (foldl_max_ge errs 0).2 e he
        · show mx ∈ errs
          rw [hmx]
          have hnn : ∀ e ∈ errs, 0 ≤ e := by
            intro e he
            obtain ⟨i, hi⟩ := List.mem_iff_getElem?.mp he
            obtain ⟨t, v, _, _, rfl⟩ := h1 i e hi
            exact mul_nonneg (len_nonneg _) (by norm_num)
          have hmem : ∀ (l : List ℝ) (m : ℝ), l.foldl max m = m ∨ l.foldl max m ∈ l := by
            intro l
            induction l with
            | nil => intro m; left; rfl
            | cons x l ih =>
              intro m
              rw [List.foldl_cons]
              rcases ih (max m x) with h | h
              · rcases max_choice m x with hm | hm
                · left; rw [h, hm]
                · right; rw [h, hm]; simp
              · right; simp [h]
          rcases hmem errs 0 with h | h
          · have hall : ∀ e ∈ errs, e = 0 := fun e he => le_antisymm (by have := (foldl_max_ge errs 0).2 e he; rwa [h] at this) (hnn e he)
            rw [h]
            obtain ⟨e, he⟩ := List.exists_mem_of_ne_nil errs hne
            have := hall e he
            rwa [this] at he
          · exact h
        · show (if cnt = 0 then 0 else Real.sqrt (sq / cnt)) = _
          rw [if_neg (by omega), hsq, hcnt, zero_add, zero_add]
          simp only [pow_two]

/-- C147, finding. If a validation date lies beyond the end by no more than 10⁻⁹ s, no fit is possible: the date is evaluated and refused. -/
theorem past_end_refused {ch : Cheby} {au : ℝ} {sol : ℝ → Option V} {c : FitConfig} {fuel n : Nat} (hn : 0 < n) (hc : Contract ch n)
    (hf : secondsOf c.stop - secondsOf c.start ≤ fuel * c.block) (hfuel : secondsOf c.stop + 1 / 10 ^ 9 - secondsOf c.start < fuel * c.validationStep) {i : Nat}
    (h1 : secondsOf c.stop < secondsOf c.start + i * c.validationStep) (h2 : secondsOf c.start + i * c.validationStep ≤ secondsOf c.stop + 1 / 10 ^ 9) :
    ∃ e, fitWithOrder ch au sol c fuel n = .error e := by
  cases h : fitWithOrder ch au sol c fuel n with
  | error e => exact ⟨e, rfl⟩
  | ok f =>
    exfalso
    unfold fitWithOrder at h
    cases hv : validConfig c with
    | false => rw [hv] at h; cases h
    | true =>
      rw [hv, if_pos rfl] at h
      unfold validConfig at hv
      rw [decide_eq_true_eq] at hv
      cases hb : fitBlocks ch sol n c.block (secondsOf c.stop) fuel (secondsOf c.start) with
      | error e => rw [hb] at h; cases h
      | ok recs =>
        rw [hb] at h
        dsimp only at h
        cases hl : validateLoop ch au sol recs n (secondsOf c.stop) c.validationStep fuel (secondsOf c.start) (0, 0, 0) with
        | error e => rw [hl] at h; cases h
        | ok r =>
          obtain ⟨mx, sq, cnt⟩ := r
          obtain ⟨errs, g1, g2, _⟩ := validate_spec fuel hfuel hl
          have hlt := g2 i hv.2.2 h2
          obtain ⟨t, v, _, hev, _⟩ := g1 i _ (List.getElem?_eq_getElem hlt)
          obtain ⟨e, he⟩ := fit_refuses hn hc (au := au) hv.2.1 hv.1 hf hb (Or.inr h1)
          rw [he] at hev
          cases hev

/-- C147, finding. The error reported as the best when no order is good enough is that of the last order. -/
theorem last_not_best : fitOrders (fun n => .ok ⟨n, [], n, 0⟩) 1 [16, 24, 32, 40, 48] none = .error (.toleranceNotMet 48) := by
  norm_num [fitOrders]

/-! ### Cases -/

/-- Interpolation by constants meets the contract for one node. -/
example : Contract ⟨fun _ => [0], fun xs => xs, fun c _ => c.getD 0 0⟩ 1 := by
  refine ⟨rfl, ?_, fun xs h => h, ?_⟩
  · intro x hx
    simp only [List.mem_singleton] at hx
    subst hx
    norm_num
  · intro xs hl i x v hi hv
    cases i with
    | zero => dsimp only; rw [List.getD_eq_getElem?_getD, hv]; rfl
    | succ i => simp at hi

/-- Two records of order one. -/
example (cheb : List ℝ → ℝ → ℝ) : evaluateRecords cheb 1 [5, 5, 1, 2, 3, 15, 5, 4, 5, 6] 1 (jdOf 12) = .ok ![cheb [4] (-3 / 5) / 1, cheb [5] (-3 / 5) / 1, cheb [6] (-3 / 5) / 1] := by
  have := records_value cheb 1 (n := 1) one_pos (p := [⟨5, 5, [1], [2], [3]⟩]) (b := ⟨15, 5, [4], [5], [6]⟩) (q := []) (jd := jdOf 12)
    (by intro x hx; simp only [List.singleton_append, List.mem_cons, List.not_mem_nil, or_false] at hx; rcases hx with rfl | rfl <;> exact ⟨rfl, rfl, rfl⟩)
    (by intro x hx; rw [seconds_jd]; simp only [List.mem_singleton] at hx; subst hx; norm_num [Block.Covers])
    (by rw [seconds_jd]; norm_num [Block.Covers])
  rw [seconds_jd] at this
  norm_num [Block.flat, Block.at] at this ⊢
  exact this

end Verif.Lagrange.Props
