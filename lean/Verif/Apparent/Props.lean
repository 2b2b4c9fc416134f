import Verif.Apparent.Light
import Mathlib.Tactic.FinCases

/-!
# Correction policies and stars on the horizon (C115, C116)
-/

namespace Verif.Apparent

open Classical

/-! ## C115: correction policies -/

/-- **C115**: a policy contains another exactly when every stage of the other is among its stages. -/
theorem contains_iff (a b : Policy) :
    a.contains b = true ↔ ∀ i : Fin 8, b.bits.getLsbD i = true → a.bits.getLsbD i = true := by
  obtain ⟨a⟩ := a
  obtain ⟨b⟩ := b
  unfold Policy.contains
  simp only [beq_iff_eq]
  constructor
  · intro h i hi
    have := congrArg (fun v => BitVec.getLsbD v i) h
    simp only [BitVec.getLsbD_and, hi, Bool.and_true] at this
    exact this
  · intro h
    apply BitVec.eq_of_getLsbD_eq
    intro i hi
    rw [BitVec.getLsbD_and]
    have := h ⟨i, hi⟩
    simp only at this
    cases hb : b.getLsbD i
    · simp
    · simp [this hb]

/-- **C115**: the union is the smallest policy containing both. -/
theorem union_least (a b c : Policy) :
    c.contains (a.union b) = true ↔ c.contains a = true ∧ c.contains b = true := by
  rw [contains_iff, contains_iff, contains_iff]
  unfold Policy.union
  simp only [BitVec.getLsbD_or, Bool.or_eq_true]
  exact ⟨fun h => ⟨fun i hi => h i (Or.inl hi), fun i hi => h i (Or.inr hi)⟩,
    fun h i hi => hi.elim (h.1 i) (h.2 i)⟩

theorem contains_refl (a : Policy) : a.contains a = true := (contains_iff a a).mpr fun _ h => h

theorem contains_antisymm {a b : Policy} (h : a.contains b = true) (h' : b.contains a = true) : a = b := by
  rw [contains_iff] at h h'
  obtain ⟨a⟩ := a
  obtain ⟨b⟩ := b
  congr 1
  apply BitVec.eq_of_getLsbD_eq
  intro i hi
  exact Bool.eq_iff_iff.mpr ⟨h' ⟨i, hi⟩, h ⟨i, hi⟩⟩

theorem contains_trans {a b c : Policy} (h : a.contains b = true) (h' : b.contains c = true) : a.contains c = true := by
  rw [contains_iff] at *
  exact fun i hi => h i (h' i hi)

/-- **C115**: a stage is in a union exactly when it is in one of the two: no stage brings in another. -/
theorem stage_in_union (a b : Policy) {s : Policy} (hs : s ∈ correctionOrder) :
    (a.union b).contains s = true ↔ a.contains s = true ∨ b.contains s = true := by
  have own : ∀ k : Fin 8, (BitVec.ofNat 8 (2 ^ k.1)).getLsbD k = true := by decide
  have only : ∀ k i : Fin 8, (BitVec.ofNat 8 (2 ^ k.1)).getLsbD i = true → i = k := by decide
  have key : ∀ k : Fin 8, (∀ p : Policy, p.contains ⟨BitVec.ofNat 8 (2 ^ k.1)⟩ = true ↔ p.bits.getLsbD k = true) := by
    intro k p
    rw [contains_iff]
    constructor
    · intro h
      exact h k (own k)
    · intro h i hi
      have : i = k := only k i hi
      rw [this]
      exact h
  have hor : ∀ k : Fin 8, (a.union b).contains ⟨BitVec.ofNat 8 (2 ^ k.1)⟩ = true ↔
      a.contains ⟨BitVec.ofNat 8 (2 ^ k.1)⟩ = true ∨ b.contains ⟨BitVec.ofNat 8 (2 ^ k.1)⟩ = true := by
    intro k
    rw [key, key, key]
    unfold Policy.union
    rw [BitVec.getLsbD_or, Bool.or_eq_true]
  simp only [correctionOrder, List.mem_cons, List.not_mem_nil, or_false] at hs
  rcases hs with h | h | h | h <;> rw [h]
  · exact hor 0
  · exact hor 1
  · exact hor 2
  · exact hor 3

/-- **C115**: `APPARENT` is the union of the four stages of the pipeline, each listed once, and `GEOMETRIC` has none. -/
theorem apparent_stages :
    (∀ c : Policy, c.contains .apparent = true ↔ ∀ s ∈ correctionOrder, c.contains s = true) ∧
    correctionOrder.Nodup ∧ correctionOrder.length = 4 ∧
    (∀ s ∈ correctionOrder, Policy.geometric.contains s = false) ∧
    (∀ a : Policy, a.contains .geometric = true) ∧ (∀ a : Policy, a.union .geometric = a) := by
  refine ⟨fun c => ?_, by decide, rfl, by decide, fun a => ?_, fun a => ?_⟩
  · have e : Policy.apparent = ((Policy.properMotion.union .lightTime).union .aberration).union .lightDeflection := rfl
    rw [e, union_least, union_least, union_least]
    simp only [correctionOrder, List.mem_cons, List.not_mem_nil, or_false, forall_eq_or_imp, forall_eq, and_assoc]
  · rw [contains_iff]
    intro i hi
    unfold Policy.geometric at hi
    simp at hi
  · unfold Policy.union Policy.geometric
    simp

/-- **C115**: after any sequence of recorded stages the report holds exactly these, and the request unchanged. -/
theorem report_stages (p : Policy) (l : List Policy) {s : Policy} (hs : s ∈ correctionOrder) :
    ((l.foldl Applied.record (Applied.fromRequest p)).applied.contains s = true ↔
      ∃ q ∈ l, q.contains s = true) ∧
    (l.foldl Applied.record (Applied.fromRequest p)).requested = p := by
  have gen : ∀ (l : List Policy) (a : Applied),
      ((l.foldl Applied.record a).applied.contains s = true ↔ a.applied.contains s = true ∨ ∃ q ∈ l, q.contains s = true) ∧
      (l.foldl Applied.record a).requested = a.requested := by
    intro l
    induction l with
    | nil => intro a; simp
    | cons q l ih =>
      intro a
      obtain ⟨h1, h2⟩ := ih (a.record q)
      refine ⟨?_, h2⟩
      rw [List.foldl_cons, h1]
      unfold Applied.record
      simp only
      rw [stage_in_union _ _ hs]
      simp only [List.mem_cons, exists_eq_or_imp, or_assoc]
  obtain ⟨h1, h2⟩ := gen l (Applied.fromRequest p)
  refine ⟨h1.trans ?_, h2⟩
  have : (Applied.fromRequest p).applied.contains s = false := apparent_stages.2.2.2.1 s hs
  rw [this]
  simp

/-- **C115**: the report stays within the request when every recorded stage is in it … -/
theorem report_within (p : Policy) (l : List Policy) (h : ∀ q ∈ l, p.contains q = true) :
    p.contains (l.foldl Applied.record (Applied.fromRequest p)).applied = true := by
  have gen : ∀ (l : List Policy) (a : Applied), p.contains a.applied = true → (∀ q ∈ l, p.contains q = true) →
      p.contains (l.foldl Applied.record a).applied = true := by
    intro l
    induction l with
    | nil => intro a h _; exact h
    | cons q l ih =>
      intro a ha hl
      refine ih _ ?_ fun r hr => hl r (List.mem_cons_of_mem _ hr)
      exact (union_least _ _ _).mpr ⟨ha, hl q List.mem_cons_self⟩
  exact gen l _ (apparent_stages.2.2.2.2.1 p) h

/-- **C115 (finding)**: … and leaves it as soon as one is not: `applied` is documented as a subset of `requested`,
but `record` does not look at the request. -/
theorem report_outside (p q : Policy) (h : p.contains q = false) :
    p.contains ((Applied.fromRequest p).record q).applied = false := by
  have : ((Applied.fromRequest p).record q).applied = q := by
    unfold Applied.record Applied.fromRequest Policy.union Policy.geometric
    simp
  rw [this, h]

example : Policy.aberration.contains ((Applied.fromRequest .aberration).record .lightDeflection).applied = false :=
  report_outside _ _ (by decide)

/-- **C115 (finding)**: aberration and deflection do not commute, so that the documented order, aberration before
deflection, gives another place than the one it cites, deflection (at rest) before aberration (into the moving
frame): for an observer moving towards a star at right angles to the Sun, only the second moves the deflected star
back towards the apex. -/
theorem order_matters {p t : Vec3} (h : Placed p t) {d b : ℝ} (hd : 1e-10 ≤ d) (hb : 0 < b) (hb1 : b < 1) :
    solarDeflection (aberrate t (b • t)) (-(d • p)) ≠ aberrate (solarDeflection t (-(d • p))) (b • t) := by
  have hs : 0 < solarRadius := by unfold solarRadius; norm_num
  have hd0 : 0 < d := lt_of_lt_of_le (by norm_num) hd
  have ht : Spec.towards p t (Real.pi / 2) = t := by unfold Spec.towards; simp
  have hbn : ‖b • t‖ = b := by rw [norm_smul, h.side, mul_one, Real.norm_of_nonneg hb.le]
  have htt : inner ℝ t t = (1 : ℝ) := by rw [real_inner_self_eq_norm_sq, h.side]; norm_num
  have hapex : aberrate t (b • t) = t := by
    have hu := aberration_unit h.side (β := b • t) (by rw [hbn]; exact hb1)
    have hc := aberration_cosine h.side (β := b • t) (by rw [hbn]; exact hb1)
    rw [hbn, inner_smul_left, inner_smul_left, htt] at hc
    simp only [conj_trivial, mul_one] at hc
    have h1 : inner ℝ t (aberrate t (b • t)) = (1 : ℝ) := by
      have e : b * inner ℝ t (aberrate t (b • t)) = b * 1 := by
        rw [hc]
        have : (1 + b) ≠ 0 := by linarith
        field_simp
        try ring
      exact mul_left_cancel₀ hb.ne' e
    exact ((inner_eq_one_iff_of_norm_eq_one h.side hu).mp h1).symm
  have hcos : Real.cos (Real.pi / 2) = 0 := Real.cos_pi_div_two
  obtain ⟨δ, hδ⟩ : ∃ δ, δ = Real.arctan (solarRadius / d * (Real.cos (Real.pi / 2 / 2) / Real.sin (Real.pi / 2 / 2))) := ⟨_, rfl⟩
  have hdef : solarDeflection t (-(d • p)) = Spec.towards p t (Real.pi / 2 + δ) := by
    have := deflection_angle h hd hs (θ := Real.pi / 2) (by rw [hcos]; norm_num)
    rw [ht, ← hδ] at this
    exact this
  have hδ0 : 0 < δ := by
    rw [hδ]
    apply Real.arctan_pos.mpr
    have : 0 < Real.cos (Real.pi / 2 / 2) := Real.cos_pos_of_mem_Ioo ⟨by linarith [Real.pi_pos], by linarith [Real.pi_pos]⟩
    have : 0 < Real.sin (Real.pi / 2 / 2) := Real.sin_pos_of_pos_of_lt_pi (by linarith [Real.pi_pos]) (by linarith [Real.pi_pos])
    positivity
  have hδ1 : δ < Real.pi / 2 := by rw [hδ]; exact Real.arctan_lt_pi_div_two _
  have hc0 : 0 < Real.cos δ := Real.cos_pos_of_mem_Ioo ⟨by linarith, hδ1⟩
  have hs0 : 0 < Real.sin δ := Real.sin_pos_of_pos_of_lt_pi hδ0 (by linarith [Real.pi_pos])
  have hin : inner ℝ t (Spec.towards p t (Real.pi / 2 + δ)) = Real.cos δ := by
    have := towards_inner h (Real.pi / 2) (Real.pi / 2 + δ)
    rw [ht, show Real.pi / 2 - (Real.pi / 2 + δ) = -δ by ring, Real.cos_neg] at this
    exact this
  rw [hapex, hdef]
  intro heq
  have hc := aberration_cosine (towards_unit h (Real.pi / 2 + δ)) (β := b • t) (by rw [hbn]; exact hb1)
  rw [← heq, hbn, inner_smul_left, hin] at hc
  simp only [conj_trivial] at hc
  rw [eq_div_iff (by positivity)] at hc
  have h2 := Real.sin_sq_add_cos_sq δ
  have : b ^ 2 * Real.sin δ ^ 2 = 0 := by nlinarith
  have : 0 < b ^ 2 * Real.sin δ ^ 2 := by positivity
  linarith

/-! ## C116: stars on the horizon -/

theorem cos_wrap (x : ℝ) : Real.cos (wrap x) = Real.cos x := Real.cos_sub_int_mul_two_pi x _
theorem sin_wrap (x : ℝ) : Real.sin (wrap x) = Real.sin x := Real.sin_sub_int_mul_two_pi x _

theorem wrap_range (x : ℝ) : 0 ≤ wrap x ∧ wrap x < 2 * Real.pi := by
  have hp : 0 < 2 * Real.pi := by positivity
  unfold wrap
  have h1 := Int.floor_le (x / (2 * Real.pi))
  have h2 := Int.lt_floor_add_one (x / (2 * Real.pi))
  rw [le_div_iff₀ hp] at h1
  rw [div_lt_iff₀ hp] at h2
  constructor <;> linarith

theorem atan2_polar (x y : ℝ) :
    Real.sqrt (x * x + y * y) * Real.cos (atan2 y x) = x ∧ Real.sqrt (x * x + y * y) * Real.sin (atan2 y x) = y := by
  have hn : ‖(⟨x, y⟩ : ℂ)‖ = Real.sqrt (x * x + y * y) := by
    rw [Complex.norm_def, Complex.normSq_mk]
  rw [← hn]
  exact ⟨Complex.norm_mul_cos_arg _, Complex.norm_mul_sin_arg _⟩

/-- The zenith, north and east components of a unit vector. -/
structure Frame (lat lst : ℝ) (v : Fin 3 → ℝ) (u n e : ℝ) : Prop where
  zenith : u = Spec.up lat lst ⬝ᵥ v
  north : n = Spec.north lat lst ⬝ᵥ v
  east : e = Spec.east lst ⬝ᵥ v

/-- The hour-angle formulas give the components of the direction along zenith, north and east. -/
theorem hour_angle {lat lst ra dec rxy : ℝ} {v : Fin 3 → ℝ} (h0 : rxy * Real.cos ra = v 0)
    (h1 : rxy * Real.sin ra = v 1) (h2 : Real.sin dec = v 2) (h3 : Real.cos dec = rxy) :
    Frame lat lst v (Real.sin dec * Real.sin lat + Real.cos dec * Real.cos lat * Real.cos (wrap (lst - ra)))
      (Real.sin dec * Real.cos lat - Real.cos dec * Real.cos (wrap (lst - ra)) * Real.sin lat)
      (-Real.cos dec * Real.sin (wrap (lst - ra))) := by
  constructor <;>
    simp only [dotProduct, Fin.sum_univ_three, Spec.up, Spec.north, Spec.east, Matrix.cons_val_zero,
      Matrix.cons_val_one, Matrix.cons_val, ← h0, ← h1, ← h2, h3, cos_wrap, sin_wrap, Real.cos_sub,
      Real.sin_sub] <;> ring

theorem frame_norm {lat lst : ℝ} {v : Fin 3 → ℝ} {u n e : ℝ} (h : Frame lat lst v u n e) :
    u ^ 2 + n ^ 2 + e ^ 2 = v 0 ^ 2 + v 1 ^ 2 + v 2 ^ 2 := by
  rw [h.zenith, h.north, h.east]
  simp only [dotProduct, Fin.sum_univ_three, Spec.up, Spec.north, Spec.east, Matrix.cons_val_zero,
    Matrix.cons_val_one, Matrix.cons_val]
  have a := Real.sin_sq_add_cos_sq lat
  have b := Real.sin_sq_add_cos_sq lst
  obtain ⟨sl, hsl⟩ : ∃ x, x = Real.sin lat := ⟨_, rfl⟩
  obtain ⟨cl, hcl⟩ : ∃ x, x = Real.cos lat := ⟨_, rfl⟩
  obtain ⟨ss, hss⟩ : ∃ x, x = Real.sin lst := ⟨_, rfl⟩
  obtain ⟨cs, hcs⟩ : ∃ x, x = Real.cos lst := ⟨_, rfl⟩
  rw [← hsl, ← hcl] at a ⊢
  rw [← hss, ← hcs] at b ⊢
  have e1 : (cl * cs * v 0 + cl * ss * v 1 + sl * v 2) ^ 2 + (-sl * cs * v 0 + -sl * ss * v 1 + cl * v 2) ^ 2
      + (-ss * v 0 + cs * v 1 + 0 * v 2) ^ 2
      = (sl ^ 2 + cl ^ 2) * ((cs * v 0 + ss * v 1) ^ 2 + v 2 ^ 2) + (-ss * v 0 + cs * v 1) ^ 2 := by ring
  rw [e1, a, one_mul]
  have e2 : (cs * v 0 + ss * v 1) ^ 2 + v 2 ^ 2 + (-ss * v 0 + cs * v 1) ^ 2
      = (ss ^ 2 + cs ^ 2) * (v 0 ^ 2 + v 1 ^ 2) + v 2 ^ 2 := by ring
  rw [e2, b, one_mul]

/-- A matrix that keeps lengths, as a precession-nutation-bias matrix does. -/
def Keeps (m : Matrix (Fin 3) (Fin 3) ℝ) : Prop :=
  ∀ v : Fin 3 → ℝ, (m.mulVec v) 0 ^ 2 + (m.mulVec v) 1 ^ 2 + (m.mulVec v) 2 ^ 2 = v 0 ^ 2 + v 1 ^ 2 + v 2 ^ 2

theorem ofDate_unit {npb : Matrix (Fin 3) (Fin 3) ℝ} (h : Keeps npb) (policy : Policy) (ra dec : ℝ) :
    ofDate npb policy ra dec 0 ^ 2 + ofDate npb policy ra dec 1 ^ 2 + ofDate npb policy ra dec 2 ^ 2 = 1 := by
  have hc : catalogue ra dec 0 ^ 2 + catalogue ra dec 1 ^ 2 + catalogue ra dec 2 ^ 2 = 1 := by
    unfold catalogue
    simp only [Matrix.cons_val_zero, Matrix.cons_val_one, Matrix.cons_val]
    have a := Real.sin_sq_add_cos_sq ra
    have b := Real.sin_sq_add_cos_sq dec
    nlinarith
  unfold ofDate
  split
  · exact hc
  · rw [h, hc]

theorem rxy_eq {v : Fin 3 → ℝ} (h : v 0 ^ 2 + v 1 ^ 2 + v 2 ^ 2 = 1) :
    Real.sqrt (v 0 * v 0 + v 1 * v 1) = Real.sqrt (1 - v 2 ^ 2) := by
  congr 1
  nlinarith

theorem frame_altitude {npb : Matrix (Fin 3) (Fin 3) ℝ} (h : Keeps npb) (gast lat lon ra dec : ℝ) (policy : Policy) :
    starAltitude npb gast lat lon ra dec policy
      = Real.arcsin (Spec.up lat (gast + lon) ⬝ᵥ ofDate npb policy ra dec) := by
  have hu := ofDate_unit h policy ra dec
  unfold starAltitude
  simp only
  generalize ofDate npb policy ra dec = v at *
  obtain ⟨p1, p2⟩ := atan2_polar (v 0) (v 1)
  obtain ⟨q1, q2⟩ := atan2_polar (Real.sqrt (v 0 * v 0 + v 1 * v 1)) (v 2)
  have hn : Real.sqrt (Real.sqrt (v 0 * v 0 + v 1 * v 1) * Real.sqrt (v 0 * v 0 + v 1 * v 1) + v 2 * v 2) = 1 := by
    rw [Real.mul_self_sqrt (by nlinarith [sq_nonneg (v 0), sq_nonneg (v 1)]), Real.sqrt_eq_one]
    nlinarith
  rw [hn, one_mul] at q1 q2
  rw [← (hour_angle (lat := lat) (lst := gast + lon) p1 p2 q2 q1).zenith]

/-- **C116**: the altitude of a star is the angle above the horizon of its direction of date: its sine is the
component along the zenith of the observer at local apparent sidereal time. -/
theorem star_altitude {npb : Matrix (Fin 3) (Fin 3) ℝ} (h : Keeps npb) (gast lat lon ra dec : ℝ) (policy : Policy)
    (hp : policy ≠ .geometric) :
    Real.sin (starAltitude npb gast lat lon ra dec policy)
      = Spec.up lat (gast + lon) ⬝ᵥ npb.mulVec ![Real.cos dec * Real.cos ra, Real.cos dec * Real.sin ra, Real.sin dec] ∧
    -(Real.pi / 2) ≤ starAltitude npb gast lat lon ra dec policy ∧
    starAltitude npb gast lat lon ra dec policy ≤ Real.pi / 2 := by
  have he : ofDate npb policy ra dec = npb.mulVec ![Real.cos dec * Real.cos ra, Real.cos dec * Real.sin ra, Real.sin dec] := by
    unfold ofDate
    rw [if_neg hp]
    rfl
  have hu := ofDate_unit h policy ra dec
  rw [frame_altitude h, he] at *
  generalize npb.mulVec _ = v at *
  have hf : Frame lat (gast + lon) v _ _ _ := ⟨rfl, rfl, rfl⟩
  have hn := frame_norm hf
  rw [hu] at hn
  refine ⟨Real.sin_arcsin ?_ ?_, Real.neg_pi_div_two_le_arcsin _, Real.arcsin_le_pi_div_two _⟩ <;> nlinarith

/-- **C116**: altitude and azimuth of a star give back its direction of date: north, east and zenith components; the
azimuth lies in `[0°, 360°)` and the altitude is the one of the altitude function. -/
theorem star_horizontal {npb : Matrix (Fin 3) (Fin 3) ℝ} (h : Keeps npb) (gast lat lon ra dec : ℝ) (policy : Policy)
    (hp : policy ≠ .geometric) {alt az : ℝ} (ha : starHorizontal npb gast lat lon ra dec policy = (alt, az)) :
    let v := npb.mulVec ![Real.cos dec * Real.cos ra, Real.cos dec * Real.sin ra, Real.sin dec]
    let a := alt * (Real.pi / 180)
    let z := az * (Real.pi / 180)
    Real.sin a = Spec.up lat (gast + lon) ⬝ᵥ v ∧ Real.cos a * Real.cos z = Spec.north lat (gast + lon) ⬝ᵥ v ∧
    Real.cos a * Real.sin z = Spec.east (gast + lon) ⬝ᵥ v ∧ 0 ≤ az ∧ az < 360 ∧
    a = starAltitude npb gast lat lon ra dec policy := by
  have he : ofDate npb policy ra dec = npb.mulVec ![Real.cos dec * Real.cos ra, Real.cos dec * Real.sin ra, Real.sin dec] := by
    unfold ofDate
    rw [if_neg hp]
    rfl
  have hu := ofDate_unit h policy ra dec
  have hal := frame_altitude h gast lat lon ra dec policy
  unfold starHorizontal at ha
  simp only [Prod.mk.injEq] at ha
  rw [he] at *
  generalize npb.mulVec _ = v at *
  obtain ⟨ha1, ha2⟩ := ha
  obtain ⟨p1, p2⟩ := atan2_polar (v 0) (v 1)
  have hz : |v 2| ≤ 1 := abs_le_of_sq_le_sq (by nlinarith [sq_nonneg (v 0), sq_nonneg (v 1)]) zero_le_one
  rw [abs_le] at hz
  have q2 : Real.sin (Real.arcsin (v 2)) = v 2 := Real.sin_arcsin hz.1 hz.2
  have q1 : Real.cos (Real.arcsin (v 2)) = Real.sqrt (v 0 * v 0 + v 1 * v 1) := by
    rw [Real.cos_arcsin, rxy_eq hu]
  have hf := hour_angle (lat := lat) (lst := gast + lon) p1 p2 q2 q1
  have hn := frame_norm hf
  rw [hu] at hn
  rw [← hf.zenith] at hal
  show Real.sin (alt * (Real.pi / 180)) = Spec.up lat (gast + lon) ⬝ᵥ v ∧
    Real.cos (alt * (Real.pi / 180)) * Real.cos (az * (Real.pi / 180)) = Spec.north lat (gast + lon) ⬝ᵥ v ∧
    Real.cos (alt * (Real.pi / 180)) * Real.sin (az * (Real.pi / 180)) = Spec.east (gast + lon) ⬝ᵥ v ∧ 0 ≤ az ∧
    az < 360 ∧ alt * (Real.pi / 180) = starAltitude npb gast lat lon ra dec policy
  rw [← hf.zenith, ← hf.north, ← hf.east]
  generalize Real.sin (Real.arcsin (v 2)) * Real.sin lat + _ = U at *
  generalize Real.sin (Real.arcsin (v 2)) * Real.cos lat - _ = N at *
  generalize -Real.cos (Real.arcsin (v 2)) * _ = E at *
  have hpi := Real.pi_pos
  have ea : alt * (Real.pi / 180) = Real.arcsin U := by rw [← ha1]; field_simp
  have ez : az * (Real.pi / 180) = wrap (atan2 E N) := by rw [← ha2]; field_simp
  have hU : |U| ≤ 1 := abs_le_of_sq_le_sq (by nlinarith [sq_nonneg N, sq_nonneg E]) zero_le_one
  rw [abs_le] at hU
  have hcos : Real.cos (alt * (Real.pi / 180)) = Real.sqrt (N * N + E * E) := by
    rw [ea, Real.cos_arcsin]
    congr 1
    nlinarith
  obtain ⟨r1, r2⟩ := atan2_polar N E
  have hw := wrap_range (atan2 E N)
  refine ⟨?_, ?_, ?_, ?_, ?_, ?_⟩
  · rw [ea, Real.sin_arcsin hU.1 hU.2]
  · rw [hcos, ez, cos_wrap, r1]
  · rw [hcos, ez, sin_wrap, r2]
  · rw [← ha2]
    have := hw.1
    positivity
  · rw [← ha2]
    have := hw.2
    rw [mul_div_assoc', div_lt_iff₀ hpi]
    linarith
  · rw [ea, hal]

theorem keeps_one : Keeps 1 := by
  intro v
  simp

/-- A star at the pole stands at the latitude of the observer. -/
example : Real.sin (starAltitude 1 1 (Real.pi / 6) 2 0 (Real.pi / 2) .apparent) = 1 / 2 := by
  rw [(star_altitude keeps_one 1 (Real.pi / 6) 2 0 (Real.pi / 2) .apparent (by decide)).1]
  simp [Spec.up, dotProduct, Fin.sum_univ_three]

/-- **C116 (finding)**: the policy only selects between the catalogue place and the place of date: any two policies
other than `GEOMETRIC` give the same altitude and azimuth, so `ABERRATION`, `LIGHT_DEFLECTION`, `LIGHT_TIME`,
`PROPER_MOTION` and `APPARENT` are indistinguishable and none of their corrections is applied. -/
theorem policies_indistinct (npb : Matrix (Fin 3) (Fin 3) ℝ) (gast lat lon ra dec : ℝ) {p q : Policy}
    (hp : p ≠ .geometric) (hq : q ≠ .geometric) :
    starAltitude npb gast lat lon ra dec p = starAltitude npb gast lat lon ra dec q ∧
    starHorizontal npb gast lat lon ra dec p = starHorizontal npb gast lat lon ra dec q := by
  have : ofDate npb p ra dec = ofDate npb q ra dec := by
    unfold ofDate
    rw [if_neg hp, if_neg hq]
  unfold starAltitude starHorizontal
  rw [this]
  exact ⟨rfl, rfl⟩

/-- **C116 (finding)**: the apparent altitude of a star is the one without aberration: for an observer moving so that
aberration raises the star, the altitude under `APPARENT` differs from that of the aberrated direction. -/
theorem apparent_without_aberration :
    ∃ β : Vec3, ‖β‖ < 1 ∧
      Real.sin (starAltitude 1 0 0 0 (Real.pi / 2) 0 .apparent)
        ≠ Spec.up 0 0 ⬝ᵥ (aberrate !₂[0, 1, 0] β).ofLp := by
  have n1 : ‖(!₂[0, 1, 0] : Vec3)‖ = 1 := by
    rw [EuclideanSpace.norm_eq]
    simp [Fin.sum_univ_three]
  have n2 : ‖(!₂[3 / 5, 0, 0] : Vec3)‖ = 3 / 5 := by
    rw [EuclideanSpace.norm_eq]
    simp [Fin.sum_univ_three]
    rw [Real.sqrt_sq (by norm_num)]
  refine ⟨!₂[3 / 5, 0, 0], by rw [n2]; norm_num, ?_⟩
  rw [(star_altitude keeps_one 0 0 0 (Real.pi / 2) 0 .apparent (by decide)).1]
  have hi : inner ℝ (!₂[3 / 5, 0, 0] : Vec3) !₂[0, 1, 0] = (0 : ℝ) := by
    simp [PiLp.inner_apply, Fin.sum_univ_three]
  have hc := aberration_cosine n1 (β := !₂[3 / 5, 0, 0]) (by rw [n2]; norm_num)
  rw [hi, n2] at hc
  intro h
  simp [Spec.up, dotProduct, Fin.sum_univ_three] at h
  simp [PiLp.inner_apply, Fin.sum_univ_three, ← h] at hc
  norm_num at hc

/-- **C116 (finding)**: `GEOMETRIC` takes the hour angle of a catalogue place from the sidereal time of date.  Where
precession has turned the equinox by `ψ` (a rotation about the pole of a star on the equator), the altitude differs
from the place of date in the same sky; at `ψ = 90°` the star in the zenith is put on the horizon. -/
theorem geometric_mixes :
    ∃ npb : Matrix (Fin 3) (Fin 3) ℝ, Keeps npb ∧
      Real.sin (starAltitude npb (Real.pi / 2) 0 0 0 0 .apparent) = 1 ∧
      Real.sin (starAltitude npb (Real.pi / 2) 0 0 0 0 .geometric) = 0 := by
  have hk : Keeps !![0, -1, 0; 1, 0, 0; 0, 0, 1] := by
    intro v
    simp [Matrix.mulVec, dotProduct, Fin.sum_univ_three]
    ring
  refine ⟨!![0, -1, 0; 1, 0, 0; 0, 0, 1], hk, ?_, ?_⟩
  · rw [(star_altitude hk (Real.pi / 2) 0 0 0 0 .apparent (by decide)).1]
    simp [Spec.up, Matrix.mulVec, dotProduct, Fin.sum_univ_three]
  · rw [frame_altitude hk]
    simp [ofDate, catalogue, Spec.up, dotProduct, Fin.sum_univ_three]

end Verif.Apparent
