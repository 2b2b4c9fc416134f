import Verif.Mission.Model
import Verif.Mission.Spec
import Mathlib.Analysis.Real.Pi.Bounds

/-!
# The terrain profile
-/

namespace Verif.Mission

theorem tau_pos : 0 < tau := by
  unfold tau
  linarith [Real.pi_pos]

theorem remEuclid_range {y : ℝ} (x : ℝ) (hy : 0 < y) : 0 ≤ remEuclid x y ∧ remEuclid x y < y := by
  unfold remEuclid
  have h1 := Int.floor_le (x / y)
  have h2 := Int.lt_floor_add_one (x / y)
  rw [le_div_iff₀ hy] at h1
  rw [div_lt_iff₀ hy] at h2
  constructor <;> linarith

theorem remEuclid_id {x y : ℝ} (h : 0 ≤ x) (h' : x < y) : remEuclid x y = x := by
  unfold remEuclid
  have : ⌊x / y⌋ = 0 := by
    rw [Int.floor_eq_zero_iff]
    exact ⟨div_nonneg h (by linarith), (div_lt_one (by linarith)).mpr h'⟩
  rw [this]
  simp

/-- Reduction is unchanged by whole turns. -/
theorem remEuclid_shift {y : ℝ} (x : ℝ) (k : ℤ) (hy : 0 < y) : remEuclid (x + k * y) y = remEuclid x y := by
  unfold remEuclid
  have : (x + k * y) / y = x / y + k := by field_simp
  rw [this, Int.floor_add_intCast]
  push_cast
  ring

theorem insertAz_perm (x : ℝ × ℝ) (l : List (ℝ × ℝ)) : (insertAz x l).Perm (x :: l) := by
  induction l with
  | nil => exact List.Perm.refl _
  | cons y l ih =>
    unfold insertAz
    split
    · exact List.Perm.refl _
    · exact (ih.cons y).trans (List.Perm.swap x y l)

theorem sortAz_perm (l : List (ℝ × ℝ)) : (sortAz l).Perm l := by
  induction l with
  | nil => exact List.Perm.refl _
  | cons x l ih => exact (insertAz_perm x _).trans (ih.cons x)

theorem insertAz_sorted (x : ℝ × ℝ) {l : List (ℝ × ℝ)} (h : l.Pairwise fun a b => a.1 ≤ b.1) :
    (insertAz x l).Pairwise fun a b => a.1 ≤ b.1 := by
  induction l with
  | nil => simp [insertAz]
  | cons y l ih =>
    rw [List.pairwise_cons] at h
    unfold insertAz
    split
    · rename_i hle
      rw [List.pairwise_cons, List.pairwise_cons]
      refine ⟨?_, h⟩
      intro z hz
      rcases List.mem_cons.mp hz with rfl | hz
      · exact hle
      · exact hle.trans (h.1 z hz)
    · rename_i hle
      push Not at hle
      rw [List.pairwise_cons]
      refine ⟨?_, ih h.2⟩
      intro z hz
      rcases List.mem_cons.mp ((insertAz_perm x l).mem_iff.mp hz) with rfl | hz
      · exact hle.le
      · exact h.1 z hz

theorem sortAz_sorted (l : List (ℝ × ℝ)) : (sortAz l).Pairwise fun a b => a.1 ≤ b.1 := by
  induction l with
  | nil => exact List.Pairwise.nil
  | cons x l ih => exact insertAz_sorted x ih

theorem sortAz_strict {l : List (ℝ × ℝ)} (h : l.Pairwise fun a b => a.1 ≠ b.1) :
    (sortAz l).Pairwise fun a b => a.1 < b.1 := by
  have h1 : (sortAz l).Pairwise fun a b => a.1 ≠ b.1 :=
    (sortAz_perm l).symm.pairwise h fun hab => Ne.symm hab
  exact ((sortAz_sorted l).and h1).imp fun ⟨a, b⟩ => lt_of_le_of_ne a b

theorem newMask_plain {l : List (ℝ × ℝ)} (h : ∀ p ∈ l, 0 ≤ p.1 ∧ p.1 < tau) : newMask l = sortAz l := by
  unfold newMask
  conv_rhs => rw [← List.map_id (sortAz l)]
  apply List.map_congr_left
  intro p hp
  have := h p ((sortAz_perm l).mem_iff.mp hp)
  rw [remEuclid_id this.1 this.2]
  rfl

theorem maskLoop_before {az : ℝ} {first : ℝ × ℝ} {l : List (ℝ × ℝ)} (h : ∀ p ∈ l, az < p.1) :
    maskLoop az first l = none := by
  induction l with
  | nil => rfl
  | cons p l ih =>
    have hp := h p (List.mem_cons_self ..)
    cases l with
    | nil =>
      unfold maskLoop
      simp only
      rw [if_neg]
      rintro ⟨h1, _⟩
      linarith
    | cons q l =>
      unfold maskLoop
      rw [if_neg]
      · exact ih fun x hx => h x (List.mem_cons_of_mem _ hx)
      · rintro ⟨h1, _⟩
        linarith

theorem maskLoop_found {az : ℝ} {first p : ℝ × ℝ} {l : List (ℝ × ℝ)}
    (hs : (p :: l).Pairwise fun a b => a.1 < b.1) (hp : p.1 ≤ az) (haz : az ≤ first.1 + tau)
    (ht : ∀ x ∈ p :: l, x.1 < first.1 + tau) :
    ∃ a b, maskLoop az first (p :: l) = some (between az a b) ∧ a ∈ p :: l ∧
      (b ∈ p :: l ∨ b = (first.1 + tau, first.2)) ∧ a.1 ≤ az ∧ az ≤ b.1 ∧ a.1 < b.1 ∧ p.1 ≤ a.1 ∧
      b.1 ≤ first.1 + tau ∧ ∀ x ∈ p :: l, x.1 ≤ a.1 ∨ b.1 ≤ x.1 := by
  induction l generalizing p with
  | nil =>
    refine ⟨p, (first.1 + tau, first.2), ?_, List.mem_cons_self .., Or.inr rfl, hp, haz,
      ht p (List.mem_cons_self ..), le_rfl, le_rfl, ?_⟩
    · unfold maskLoop
      simp only
      rw [if_pos ⟨hp, haz⟩]
    · intro x hx
      rw [List.mem_singleton] at hx
      rw [hx]
      exact Or.inl le_rfl
  | cons q l ih =>
    rw [List.pairwise_cons] at hs
    have hpq := hs.1 q (List.mem_cons_self ..)
    by_cases h : az ≤ q.1
    · refine ⟨p, q, ?_, List.mem_cons_self .., Or.inl (List.mem_cons_of_mem _ (List.mem_cons_self ..)), hp, h,
        hpq, le_rfl, (ht q (List.mem_cons_of_mem _ (List.mem_cons_self ..))).le, ?_⟩
      · unfold maskLoop
        rw [if_pos ⟨hp, h⟩]
      · intro x hx
        rcases List.mem_cons.mp hx with rfl | hx
        · exact Or.inl le_rfl
        · rcases List.mem_cons.mp hx with rfl | hx
          · exact Or.inr le_rfl
          · exact Or.inr ((List.pairwise_cons.mp hs.2).1 x hx).le
    · push Not at h
      obtain ⟨a, b, h1, h2, h3, h4, h5, h6, h7, h8, h9⟩ := ih hs.2 h.le
        (fun x hx => ht x (List.mem_cons_of_mem _ hx))
      refine ⟨a, b, ?_, List.mem_cons_of_mem _ h2, ?_, h4, h5, h6, by linarith, h8, ?_⟩
      · unfold maskLoop
        rw [if_neg (by rintro ⟨_, h'⟩; linarith)]
        exact h1
      · rcases h3 with h3 | h3
        · exact Or.inl (List.mem_cons_of_mem _ h3)
        · exact Or.inr h3
      · intro x hx
        rcases List.mem_cons.mp hx with rfl | hx
        · exact Or.inl (by linarith)
        · exact h9 x hx

theorem last_max {l : List (ℝ × ℝ)} (hs : l.Pairwise fun a b => a.1 < b.1) (hne : l ≠ []) :
    ∀ x ∈ l, x.1 ≤ (l.getLast hne).1 := by
  induction l with
  | nil => exact absurd rfl hne
  | cons a l ih =>
    rw [List.pairwise_cons] at hs
    intro x hx
    by_cases hl : l = []
    · subst hl
      rw [List.mem_singleton] at hx
      subst hx
      exact le_rfl
    · rw [List.getLast_cons hl]
      rcases List.mem_cons.mp hx with rfl | hx
      · exact (hs.1 _ (List.getLast_mem hl)).le
      · exact ih hs.2 hl x hx

theorem around_shift {s : List (ℝ × ℝ)} {x : ℝ × ℝ} (h : x ∈ Spec.around s) (k : ℤ) :
    (x.1 + k * (2 * Real.pi), x.2) ∈ Spec.around s := by
  obtain ⟨p, hp, j, rfl⟩ := h
  refine ⟨p, hp, j + k, ?_⟩
  push_cast
  ext <;> simp
  ring

theorem horizon_shift {s : List (ℝ × ℝ)} {az e : ℝ} (h : Spec.Horizon s az e) (k : ℤ) :
    Spec.Horizon s (az + k * (2 * Real.pi)) e := by
  obtain ⟨p, hp, q, hq, h1, h2, h3, h4, h5⟩ := h
  refine ⟨_, around_shift hp k, _, around_shift hq k, by simpa using h1, by simpa using h2, by simpa using h3,
    ?_, ?_⟩
  · intro x hx
    have := h4 _ (around_shift hx (-k))
    push_cast at this
    simp only at this ⊢
    rcases this with h | h
    · left; linarith
    · right; linarith
  · rw [h5]
    simp only
    congr 3 <;> ring

theorem mem_around {s : List (ℝ × ℝ)} {p : ℝ × ℝ} (h : p ∈ s) (k : ℤ) :
    (p.1 + k * tau, p.2) ∈ Spec.around s := ⟨p, h, k, rfl⟩

theorem mem_around_self {s : List (ℝ × ℝ)} {p : ℝ × ℝ} (h : p ∈ s) : p ∈ Spec.around s := by
  have := mem_around h 0
  simpa using this

/-- **C110**: for samples at distinct azimuths of one turn, the mask is the profile drawn through the
samples around the circle. -/
theorem mask_profile {s : List (ℝ × ℝ)} (hne : s ≠ []) (hr : ∀ p ∈ s, 0 ≤ p.1 ∧ p.1 < 2 * Real.pi)
    (hd : s.Pairwise fun a b => a.1 ≠ b.1) (az : ℝ) : Spec.Horizon s az (elevationAt (newMask s) az) := by
  have ht := tau_pos
  rw [newMask_plain hr]
  have hmem : ∀ {x}, x ∈ sortAz s ↔ x ∈ s := fun {x} => (sortAz_perm s).mem_iff
  have hstr := sortAz_strict hd
  have hnil : sortAz s ≠ [] := fun h => hne (by
    have := (sortAz_perm s)
    rw [h] at this
    exact this.symm.eq_nil)
  obtain ⟨hz0, hz1⟩ := remEuclid_range az ht
  suffices hs : Spec.Horizon s (remEuclid az tau) (elevationAt (sortAz s) az) by
    have := horizon_shift hs ⌊az / tau⌋
    have e : remEuclid az tau + ⌊az / tau⌋ * (2 * Real.pi) = az := by
      unfold remEuclid tau
      ring
    rwa [e] at this
  cases hl : sortAz s with
  | nil => exact absurd hl hnil
  | cons first rest =>
  have hm : ∀ x, x ∈ first :: rest ↔ x ∈ s := fun x => by rw [← hl]; exact hmem
  rw [hl] at hstr
  have hfirst : ∀ x ∈ first :: rest, first.1 ≤ x.1 := by
    intro x hx
    rcases List.mem_cons.mp hx with rfl | hx
    · exact le_rfl
    · exact ((List.pairwise_cons.mp hstr).1 x hx).le
  have hrange : ∀ x ∈ first :: rest, 0 ≤ x.1 ∧ x.1 < tau := fun x hx => hr x ((hm x).mp hx)
  have hf := hrange first (List.mem_cons_self ..)
  unfold elevationAt
  simp only
  generalize remEuclid az tau = z at *
  by_cases hb : first.1 ≤ z
  · obtain ⟨a, b, h1, h2, h3, h4, h5, h6, h7, h8, h9⟩ := maskLoop_found (az := z) (first := first) hstr hb
      (by linarith) (fun x hx => by linarith [(hrange x hx).2])
    rw [h1]
    simp only
    refine ⟨a, mem_around_self ((hm a).mp h2), b, ?_, h4, h5, h6, ?_, ?_⟩
    · rcases h3 with h3 | h3
      · exact mem_around_self ((hm b).mp h3)
      · rw [h3]
        have := mem_around ((hm first).mp (List.mem_cons_self ..)) 1
        simpa using this
    · rintro x ⟨p, hp, k, rfl⟩
      have hp' := (hm p).mpr hp
      have hpr := hrange p hp'
      rw [show 2 * Real.pi = tau from rfl]
      simp only
      rcases lt_trichotomy k 0 with hk | hk | hk
      · left
        have : (k : ℝ) ≤ -1 := by exact_mod_cast (by omega : k ≤ -1)
        have ha := (hrange a h2).1
        nlinarith
      · rw [hk]
        have := h9 p hp'
        simpa using this
      · right
        have : (1 : ℝ) ≤ k := by exact_mod_cast (by omega : 1 ≤ k)
        have := hfirst p hp'
        nlinarith
    · unfold between
      simp only
      rw [if_neg h6.ne']
  · push Not at hb
    rw [maskLoop_before (fun p hp => by linarith [hfirst p hp])]
    simp only
    have hlast := List.getLast_mem (List.cons_ne_nil first rest)
    have hmax := last_max hstr (List.cons_ne_nil first rest)
    generalize (first :: rest).getLast (List.cons_ne_nil first rest) = last at *
    have hlr := hrange last hlast
    have hlt : last.1 - tau < first.1 := by linarith
    refine ⟨(last.1 - tau, last.2), ?_, first, mem_around_self ((hm first).mp (List.mem_cons_self ..)), ?_, hb.le,
      hlt, ?_, ?_⟩
    · have := mem_around ((hm last).mp hlast) (-1)
      have e : last.1 + ((-1 : ℤ) : ℝ) * tau = last.1 - tau := by push_cast; ring
      rwa [e] at this
    · simp only
      linarith
    · rintro x ⟨p, hp, k, rfl⟩
      have hp' := (hm p).mpr hp
      have hpr := hrange p hp'
      rw [show 2 * Real.pi = tau from rfl]
      simp only
      rcases lt_or_ge k 0 with hk | hk
      · left
        have : (k : ℝ) ≤ -1 := by exact_mod_cast (by omega : k ≤ -1)
        have := hmax p hp'
        nlinarith
      · right
        have : (0 : ℝ) ≤ k := by exact_mod_cast hk
        have := hfirst p hp'
        nlinarith
    · unfold between
      simp only
      rw [if_neg hlt.ne']

theorem around_inj {s : List (ℝ × ℝ)} (hr : ∀ p ∈ s, 0 ≤ p.1 ∧ p.1 < 2 * Real.pi)
    (hd : s.Pairwise fun a b => a.1 ≠ b.1) :
    ∀ x ∈ Spec.around s, ∀ y ∈ Spec.around s, x.1 = y.1 → x = y := by
  rintro x ⟨p, hp, j, rfl⟩ y ⟨q, hq, k, rfl⟩ hxy
  simp only at hxy
  have h1 := hr p hp
  have h2 := hr q hq
  have hpi := Real.pi_pos
  have hjk : j = k := by
    by_contra hne
    rcases lt_or_gt_of_ne hne with hlt | hlt
    · have : (j : ℝ) + 1 ≤ k := by exact_mod_cast hlt
      nlinarith
    · have : (k : ℝ) + 1 ≤ j := by exact_mod_cast hlt
      nlinarith
  subst hjk
  have hpq : p.1 = q.1 := by linarith
  have : p = q := by
    by_contra hne
    have all : ∀ {a : ℝ × ℝ}, a ∈ s → ∀ {b : ℝ × ℝ}, b ∈ s → a ≠ b → a.1 ≠ b.1 := by
      have hp2 : s.Pairwise fun a b => (a ≠ b → a.1 ≠ b.1) :=
        List.Pairwise.imp (S := fun a b : ℝ × ℝ => (a ≠ b → a.1 ≠ b.1)) (fun hab _ => hab) hd
      intro a ha b hb
      have hsymm : Std.Symm (fun a b : ℝ × ℝ => (a ≠ b → a.1 ≠ b.1)) := ⟨fun a b hab hn => (hab hn.symm).symm⟩
      exact List.Pairwise.forall_of_forall (fun a _ hn => absurd rfl hn) hp2 ha hb
    exact all hp hq hne hpq
  rw [this]

/-- The profile is a function of the azimuth. -/
theorem horizon_unique {s : List (ℝ × ℝ)} (hr : ∀ p ∈ s, 0 ≤ p.1 ∧ p.1 < 2 * Real.pi)
    (hd : s.Pairwise fun a b => a.1 ≠ b.1) {az e e' : ℝ} (h : Spec.Horizon s az e) (h' : Spec.Horizon s az e') :
    e = e' := by
  have key := around_inj hr hd
  obtain ⟨p, hp, q, hq, h1, h2, h3, h4, h5⟩ := h
  obtain ⟨p', hp', q', hq', h1', h2', h3', h4', h5'⟩ := h'
  rcases h4 p' hp' with a | a
  · rcases h4 q' hq' with b | b
    · -- both before `p`: the azimuth is `p` itself
      have e1 : az = p.1 := by linarith
      have e2 : q' = p := key q' hq' p hp (by linarith)
      rw [h5, h5', e2, e1]
      have : p.1 - p'.1 ≠ 0 := by rw [e2] at h3'; linarith
      rw [div_self this]
      ring
    · rcases h4' p hp with c | c
      · have e1 : p = p' := key p hp p' hp' (by linarith)
        rcases h4' q hq with f | f
        · exfalso
          linarith [e1 ▸ h3]
        · have e2 : q = q' := key q hq q' hq' (by linarith)
          rw [h5, h5', e1, e2]
      · have e1 : az = p.1 := by linarith
        have e2 : q' = p := key q' hq' p hp (by linarith)
        rw [h5, h5', e2, e1]
        have : p.1 - p'.1 ≠ 0 := by rw [e2] at h3'; linarith
        rw [div_self this]
        ring
  · have e1 : az = q.1 := by linarith
    have e2 : p' = q := key p' hp' q hq (by linarith)
    rw [h5, h5', e2, e1]
    have : q.1 - p.1 ≠ 0 := by linarith
    rw [div_self this]
    simp

/-- **C110**: the mask passes through its samples. -/
theorem mask_sample {s : List (ℝ × ℝ)} (hr : ∀ p ∈ s, 0 ≤ p.1 ∧ p.1 < 2 * Real.pi)
    (hd : s.Pairwise fun a b => a.1 ≠ b.1) {p : ℝ × ℝ} (hp : p ∈ s) (k : ℤ) :
    elevationAt (newMask s) (p.1 + k * (2 * Real.pi)) = p.2 := by
  have hne : s ≠ [] := fun h => by rw [h] at hp; exact absurd hp (List.not_mem_nil)
  obtain ⟨a, ha, b, hb, h1, h2, h3, h4, h5⟩ := mask_profile hne hr hd (p.1 + k * (2 * Real.pi))
  have hx := around_shift (mem_around_self hp) k
  have key := around_inj hr hd
  rw [h5]
  rcases h4 _ hx with h | h
  · have e : (p.1 + k * (2 * Real.pi), p.2) = a := key _ hx a ha (le_antisymm h h1)
    rw [← e]
    simp
  · have e : (p.1 + k * (2 * Real.pi), p.2) = b := key _ hx b hb (le_antisymm h2 h)
    rw [← e] at h3 ⊢
    simp only at h3 ⊢
    rw [div_self (by linarith)]
    ring

/-- **C110**: no value of the mask exceeds the highest sample or falls under the lowest. -/
theorem mask_bounds {s : List (ℝ × ℝ)} (hne : s ≠ []) (hr : ∀ p ∈ s, 0 ≤ p.1 ∧ p.1 < 2 * Real.pi)
    (hd : s.Pairwise fun a b => a.1 ≠ b.1) {lo hi : ℝ} (hb : ∀ p ∈ s, lo ≤ p.2 ∧ p.2 ≤ hi) (az : ℝ) :
    lo ≤ elevationAt (newMask s) az ∧ elevationAt (newMask s) az ≤ hi := by
  obtain ⟨a, ⟨a', ha, j, rfl⟩, b, ⟨b', hb', k, rfl⟩, h1, h2, h3, _, h5⟩ := mask_profile hne hr hd az
  rw [h5]
  simp only at *
  have hA := hb a' ha
  have hB := hb b' hb'
  set u := (az - (a'.1 + j * (2 * Real.pi))) / (b'.1 + k * (2 * Real.pi) - (a'.1 + j * (2 * Real.pi)))
  have hu0 : 0 ≤ u := div_nonneg (by linarith) (by linarith)
  have hu1 : u ≤ 1 := by
    apply (div_le_one (by linarith)).mpr
    linarith
  constructor <;> nlinarith

end Verif.Mission
