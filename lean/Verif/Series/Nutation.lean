import Verif.Series.Vsop
import Mathlib.Tactic.FieldSimp

/-!
Claim C149: the nutation series.
-/
namespace Verif.Series.Props
open Verif.Series

/-! ### Specification -/

/-- Angles that differ by whole turns. -/
def Turn (a b : ℝ) : Prop := ∃ k : ℤ, a = b + k * (2 * Real.pi)

/-- A sum of multiples of the arguments. -/
def angle (ns args : List ℝ) : ℝ := (List.zipWith (· * ·) ns args).sum

/-- The two series over the rows, with the arguments as they are. -/
noncomputable def longitude (t : ℝ) (args : List ℝ) (rows : List Row) : ℝ :=
  (rows.map (fun r => (r.s + r.st * t) * Real.sin (angle r.n args) + r.c * Real.cos (angle r.n args))).sum
noncomputable def obliquity (t : ℝ) (args : List ℝ) (rows : List Row) : ℝ :=
  (rows.map (fun r => (r.ec + r.ect * t) * Real.cos (angle r.n args) + r.es * Real.sin (angle r.n args))).sum

/-- The multiples are whole numbers. -/
def Whole (rows : List Row) : Prop := ∀ r ∈ rows, ∀ x ∈ r.n, ∃ k : ℤ, x = k

/-- A polynomial of degree four in seconds of arc, as an angle. -/
noncomputable def arc (c0 c1 c2 c3 c4 t : ℝ) : ℝ := (c0 + c1 * t + c2 * t ^ 2 + c3 * t ^ 3 + c4 * t ^ 4) * (Real.pi / 648000)

/-- The five lunar arguments; the constants of `l'` and `D` and the last coefficient of `F` are given. -/
noncomputable def fundamental (lp0 d0 f4 t : ℝ) : List ℝ :=
  [arc 485868.249036 1717915923.2178 31.8792 0.051635 (-0.00024470) t, arc lp0 129596581.0481 (-0.5532) 0.000136 (-0.00001149) t,
   arc 335779.526232 1739527262.8478 (-12.7512) (-0.001037) f4 t, arc d0 1602961601.2090 (-6.3706) 0.006593 (-0.00003169) t,
   arc 450160.398036 (-6962890.5431) 7.4722 0.007702 (-0.00005939) t]

/-- The planetary arguments, not reduced. -/
noncomputable def planets (t : ℝ) : List ℝ :=
  [2.35555598 + 8328.6914269554 * t, 1.627905234 + 8433.466158131 * t, 5.198466741 + 7771.3771468121 * t, 2.18243920 - 33.757045 * t,
   4.402608842 + 2608.7903141574 * t, 3.176146697 + 1021.3285546211 * t, 1.753470314 + 628.3075849991 * t, 6.203480913 + 334.0612426700 * t,
   0.599546497 + 52.9690962641 * t, 0.874016757 + 21.3299104960 * t, 5.481293872 + 7.4781598567 * t, 5.321159000 + 3.8127774000 * t,
   0.024381750 * t + 0.00000538691 * t ^ 2]

/-- A tenth of a microsecond of arc. -/
noncomputable def tenth : ℝ := Real.pi / 648000 / 10000000

/-! ### Turns -/

theorem Turn.refl (a : ℝ) : Turn a a := ⟨0, by simp⟩

theorem Turn.sin {a b : ℝ} (h : Turn a b) : Real.sin a = Real.sin b := by
  obtain ⟨k, rfl⟩ := h
  exact Real.sin_add_int_mul_two_pi b k

theorem Turn.cos {a b : ℝ} (h : Turn a b) : Real.cos a = Real.cos b := by
  obtain ⟨k, rfl⟩ := h
  exact Real.cos_add_int_mul_two_pi b k

theorem Turn.add {a b c d : ℝ} (h : Turn a b) (h' : Turn c d) : Turn (a + c) (b + d) := by
  obtain ⟨k, rfl⟩ := h
  obtain ⟨l, rfl⟩ := h'
  exact ⟨k + l, by push_cast; ring⟩

theorem Turn.mul {a b n : ℝ} (hn : ∃ k : ℤ, n = k) (h : Turn a b) : Turn (n * a) (n * b) := by
  obtain ⟨m, rfl⟩ := hn
  obtain ⟨k, rfl⟩ := h
  exact ⟨m * k, by push_cast; ring⟩

theorem Turn.trans {a b c : ℝ} (h : Turn a b) (h' : Turn b c) : Turn a c := by
  obtain ⟨k, rfl⟩ := h
  obtain ⟨l, rfl⟩ := h'
  exact ⟨l + k, by push_cast; ring⟩

theorem fmod_tau (x : ℝ) : Turn (fmod x tau) x := ⟨-trunc (x / tau), by unfold fmod tau; push_cast; ring⟩

theorem fmod_arc (x : ℝ) : Turn (fmod x turnAs * as2r) (x * as2r) :=
  ⟨-trunc (x / turnAs), by unfold fmod; rw [show (2 : ℝ) * Real.pi = turnAs * as2r by unfold turnAs as2r; ring]; push_cast; ring⟩

theorem rem_arc (x : ℝ) : Turn (remEuclid x 1296000 * Real.pi / 648000) (x * (Real.pi / 648000)) :=
  ⟨-⌊x / 1296000⌋, by unfold remEuclid; push_cast; ring⟩

theorem combine_eq (ns : List ℝ) : ∀ (args : List ℝ) (acc : ℝ), combine ns args acc = acc + angle ns args := by
  induction ns with
  | nil => intro args acc; simp [combine, angle]
  | cons n ns ih =>
    intro args acc
    cases args with
    | nil => simp [combine, angle]
    | cons a as =>
      rw [combine, ih]
      unfold angle
      rw [List.zipWith_cons_cons, List.sum_cons]
      ring

theorem angle_turn {args args' : List ℝ} (h : List.Forall₂ Turn args args') : ∀ ns : List ℝ, (∀ x ∈ ns, ∃ k : ℤ, x = k) → Turn (angle ns args) (angle ns args') := by
  induction h with
  | nil => intro ns _; exact Turn.refl _
  | cons hab _ ih =>
    intro ns hn
    cases ns with
    | nil => exact Turn.refl _
    | cons n ns =>
      unfold angle
      rw [List.zipWith_cons_cons, List.zipWith_cons_cons, List.sum_cons, List.sum_cons]
      exact (hab.mul (hn n (by simp))).add (ih ns (fun x hx => hn x (by simp [hx])))

/-! ### Sums -/

theorem foldl_step (t : ℝ) (g : Row → ℝ) (rows : List Row) : ∀ acc : ℝ × ℝ, rows.foldl (fun acc r => step t r (g r) acc) acc =
    (acc.1 + (rows.map (fun r => (r.s + r.st * t) * Real.sin (g r) + r.c * Real.cos (g r))).sum,
     acc.2 + (rows.map (fun r => (r.ec + r.ect * t) * Real.cos (g r) + r.es * Real.sin (g r))).sum) := by
  induction rows with
  | nil => intro acc; simp
  | cons r rows ih =>
    intro acc
    rw [List.foldl_cons, ih]
    unfold step
    simp only [List.map_cons, List.sum_cons]
    refine Prod.ext ?_ ?_ <;> dsimp only <;> ring

theorem foldl_turn {t : ℝ} {args args' : List ℝ} {rows : List Row} (g : Row → ℝ) (hg : ∀ r ∈ rows, Turn (g r) (angle r.n args')) :
    rows.foldl (fun acc r => step t r (g r) acc) (0, 0) = (longitude t args' rows, obliquity t args' rows) := by
  rw [foldl_step, zero_add, zero_add]
  unfold longitude obliquity
  refine Prod.ext ?_ ?_
  · dsimp only
    congr 1
    apply List.map_congr_left
    intro r hr
    rw [(hg r hr).sin, (hg r hr).cos]
  · dsimp only
    congr 1
    apply List.map_congr_left
    intro r hr
    rw [(hg r hr).sin, (hg r hr).cos]

/-- The order of the rows does not matter. -/
theorem longitude_reverse (t : ℝ) (args : List ℝ) (rows : List Row) : longitude t args rows.reverse = longitude t args rows ∧ obliquity t args rows.reverse = obliquity t args rows := by
  unfold longitude obliquity
  rw [List.map_reverse, List.map_reverse, List.sum_reverse, List.sum_reverse]
  exact ⟨rfl, rfl⟩

theorem sumRev_eq {t : ℝ} {args args' : List ℝ} (h : List.Forall₂ Turn args args') {rows : List Row} (hw : Whole rows) :
    sumRev t args rows = (longitude t args' rows, obliquity t args' rows) := by
  unfold sumRev
  rw [foldl_turn (args := args) (args' := args') (fun r => fmod (combine r.n args 0) tau), (longitude_reverse t args' rows).1, (longitude_reverse t args' rows).2]
  intro r hr
  rw [combine_eq, zero_add]
  exact (fmod_tau _).trans (angle_turn h r.n (hw r (List.mem_reverse.mp hr)))

theorem lunisolar_turn (t : ℝ) : List.Forall₂ Turn (lunisolar t) (fundamental 1287104.79305 1072260.70369 0.000000417 t) := by
  have e : as2r = Real.pi / 648000 := by unfold as2r; norm_num
  have k : ∀ x y : ℝ, x = y → Turn (fmod x turnAs * as2r) (y * (Real.pi / 648000)) := fun x y h => by
    rw [← e, ← h]; exact fmod_arc x
  unfold lunisolar fundamental faL faLp faF faD faOm arc
  refine .cons (k _ _ (by ring)) (.cons (k _ _ (by ring)) (.cons (k _ _ (by ring)) (.cons (k _ _ (by ring)) (.cons (k _ _ (by ring)) .nil))))

theorem planetary_turn (t : ℝ) : List.Forall₂ Turn (planetary t) (planets t) := by
  unfold planetary planets
  iterate 12 refine .cons (fmod_tau _) ?_
  refine .cons ?_ .nil
  rw [show (0.024381750 + 0.00000538691 * t) * t = 0.024381750 * t + 0.00000538691 * t ^ 2 by ring]
  exact Turn.refl _

theorem delaunay_turn (t : ℝ) : List.Forall₂ Turn (delaunay t) (fundamental 1287104.793048 1072260.703692 0.000000417 t) := by
  have k : ∀ x y : ℝ, x = y → Turn (remEuclid x 1296000 * Real.pi / 648000) (y * (Real.pi / 648000)) := fun x y h => by
    rw [← h]; exact rem_arc x
  unfold delaunay fundamental arc
  refine .cons (k _ _ (by ring)) (.cons (k _ _ (by ring)) (.cons (k _ _ (by ring)) (.cons (k _ _ (by ring)) (.cons (k _ _ (by ring)) .nil))))

/-- C149. The full nutation is the sum of the two series, evaluated with the arguments as they are: neither the reductions nor the order change it. -/
theorem nut00a_series {ls pl : List Row} (h1 : Whole ls) (h2 : Whole pl) (jd : ℝ) {t : ℝ} (ht : t = (jd - 2451545) / 36525) :
    nut00aRaw ls pl jd =
      ((longitude t (fundamental 1287104.79305 1072260.70369 0.000000417 t) ls + longitude t (planets t) pl) * tenth,
       (obliquity t (fundamental 1287104.79305 1072260.70369 0.000000417 t) ls + obliquity t (planets t) pl) * tenth) := by
  unfold nut00aRaw
  dsimp only
  rw [← ht, sumRev_eq (lunisolar_turn t) h1, sumRev_eq (planetary_turn t) h2]
  have e : u2r = tenth := by unfold u2r tenth as2r; norm_num
  rw [e]
  refine Prod.ext ?_ ?_ <;> dsimp only <;> ring

/-- C149. The short nutation is its series plus the constant shares of the planets, -0.000135″ and 0.000388″. -/
theorem nut00b_series {rows : List Row} (h : Whole rows) (jd : ℝ) {t : ℝ} (ht : t = (jd - 2451545) / 36525) :
    nut00b rows jd =
      (longitude t (fundamental 1287104.793048 1072260.703692 0.000000417 t) rows * tenth - 0.000135 * (Real.pi / 648000),
       obliquity t (fundamental 1287104.793048 1072260.703692 0.000000417 t) rows * tenth + 0.000388 * (Real.pi / 648000)) := by
  unfold nut00b
  dsimp only
  rw [← ht, foldl_turn (args := []) (args' := fundamental 1287104.793048 1072260.703692 0.000000417 t)]
  · have e : Real.pi / (180 * 3600 * 10 ^ 7) = tenth := by unfold tenth; rw [div_div]; norm_num
    rw [e]
    unfold tenth
    refine Prod.ext ?_ ?_ <;> dsimp only <;> ring
  · intro r hr
    rw [combine_eq, zero_add]
    exact angle_turn (delaunay_turn t) r.n (h r hr)

/-- C149. The nutation of IAU 2006 scales the full nutation: by 1 + 0.4697·10⁻⁶ - 2.7774·10⁻⁶ t in longitude and by 1 - 2.7774·10⁻⁶ t in obliquity. -/
theorem nut06a_scales (ls pl : List Row) (jd : ℝ) {t : ℝ} (ht : t = (jd - 2451545) / 36525) :
    nut06a ls pl jd = ((nut00aRaw ls pl jd).1 * (1 + 0.4697 / 10 ^ 6 - 2.7774 / 10 ^ 6 * t), (nut00aRaw ls pl jd).2 * (1 - 2.7774 / 10 ^ 6 * t)) := by
  unfold nut06a
  dsimp only
  rw [← ht]
  refine Prod.ext ?_ ?_ <;> dsimp only <;> ring

/-- C149. The profile without nutation has none; each of the others is its own series. -/
theorem model_choice (tab : NutTables) (jd : ℝ) : nutation tab .iau2006 jd = (0, 0) ∧ nutation tab .iau2000A jd = nut00aRaw tab.ls tab.pl jd ∧
    nutation tab .iau2000B jd = nut00b tab.b jd ∧ nutation tab .iau2006A jd = nut06a tab.ls tab.pl jd := ⟨rfl, rfl, rfl, rfl⟩

/-- The sums of the amplitudes. -/
noncomputable def longAmp (t : ℝ) (rows : List Row) : ℝ := (rows.map (fun r => |r.s| + |r.st| * |t| + |r.c|)).sum
noncomputable def oblAmp (t : ℝ) (rows : List Row) : ℝ := (rows.map (fun r => |r.ec| + |r.ect| * |t| + |r.es|)).sum

theorem wave_le (a b c t x : ℝ) : |(a + b * t) * Real.sin x + c * Real.cos x| ≤ |a| + |b| * |t| + |c| ∧ |(a + b * t) * Real.cos x + c * Real.sin x| ≤ |a| + |b| * |t| + |c| := by
  have k : ∀ u v : ℝ, |u| ≤ 1 → |v| ≤ 1 → |(a + b * t) * u + c * v| ≤ |a| + |b| * |t| + |c| := by
    intro u v hu hv
    refine (abs_add_le _ _).trans ?_
    rw [abs_mul, abs_mul]
    have h1 : |a + b * t| ≤ |a| + |b| * |t| := by rw [← abs_mul]; exact abs_add_le _ _
    have h2 := mul_le_mul h1 hu (abs_nonneg _) (by positivity)
    have h3 := mul_le_mul_of_nonneg_left hv (abs_nonneg c)
    linarith
  exact ⟨k _ _ (Real.abs_sin_le_one x) (Real.abs_cos_le_one x), k _ _ (Real.abs_cos_le_one x) (Real.abs_sin_le_one x)⟩

theorem sum_le (f g : Row → ℝ) (h : ∀ r, |f r| ≤ g r) (rows : List Row) : |(rows.map f).sum| ≤ (rows.map g).sum := by
  induction rows with
  | nil => simp
  | cons r rows ih =>
    rw [List.map_cons, List.sum_cons, List.map_cons, List.sum_cons]
    exact (abs_add_le _ _).trans (add_le_add (h r) ih)

theorem tenth_pos : 0 < tenth := by unfold tenth; have := Real.pi_pos; positivity

/-- C149. The nutation never exceeds the sum of the amplitudes. -/
theorem nut00a_bounded {ls pl : List Row} (h1 : Whole ls) (h2 : Whole pl) (jd : ℝ) {t : ℝ} (ht : t = (jd - 2451545) / 36525) :
    |(nut00aRaw ls pl jd).1| ≤ (longAmp t ls + longAmp t pl) * tenth ∧ |(nut00aRaw ls pl jd).2| ≤ (oblAmp t ls + oblAmp t pl) * tenth := by
  rw [nut00a_series h1 h2 jd ht]
  dsimp only
  rw [abs_mul, abs_mul, abs_of_pos tenth_pos]
  constructor
  · apply mul_le_mul_of_nonneg_right _ tenth_pos.le
    refine (abs_add_le _ _).trans (add_le_add ?_ ?_)
    · exact sum_le _ _ (fun r => (wave_le _ _ _ _ _).1) ls
    · exact sum_le _ _ (fun r => (wave_le _ _ _ _ _).1) pl
  · apply mul_le_mul_of_nonneg_right _ tenth_pos.le
    refine (abs_add_le _ _).trans (add_le_add ?_ ?_)
    · exact sum_le _ _ (fun r => (wave_le _ _ _ _ _).2) ls
    · exact sum_le _ _ (fun r => (wave_le _ _ _ _ _).2) pl

/-- C149, finding. The argument of latitude of the nutation has a tenth of the last coefficient of the IERS Conventions (0.00000417″ t⁴), which `faf03` of the sidereal
time has: the two differ by 0.000003753″ t⁴. -/
theorem latitude_argument_differs (t : ℝ) :
    Turn (faF t) (arc 335779.526232 1739527262.8478 (-12.7512) (-0.001037) 0.00000417 t - 0.000003753 * t ^ 4 * (Real.pi / 648000)) ∧
    Turn (faf03 t) (arc 335779.526232 1739527262.8478 (-12.7512) (-0.001037) 0.00000417 t) := by
  have e : as2r = Real.pi / 648000 := by unfold as2r; norm_num
  constructor
  · unfold faF
    refine (fmod_arc _).trans ?_
    rw [e]
    unfold arc
    rw [← sub_mul]
    have : ∀ x y : ℝ, x = y → Turn (x * (Real.pi / 648000)) (y * (Real.pi / 648000)) := fun x y h => by rw [h]; exact Turn.refl _
    apply this
    ring
  · unfold faf03
    have k : ∀ x y : ℝ, x = y → Turn (fmod x 1296000 * (Real.pi / (180 * 3600))) (y * (Real.pi / 648000)) := fun x y h => by
      rw [← e, ← h]; exact fmod_arc x
    unfold arc
    exact k _ _ (by ring)

/-- The difference is no whole number of turns at ten centuries. -/
theorem latitude_argument_wrong : ¬ Turn (faF 10) (arc 335779.526232 1739527262.8478 (-12.7512) (-0.001037) 0.00000417 10) := by
  intro h
  obtain ⟨k, hk⟩ := h
  obtain ⟨l, hl⟩ := (latitude_argument_differs 10).1
  have hp := Real.pi_pos
  rw [hl] at hk
  have : ((l - k : ℤ) : ℝ) * 2 = 0.000003753 * 10 ^ 4 / 648000 := by
    have h2 : (((l - k : ℤ) : ℝ) * 2 - 0.000003753 * 10 ^ 4 / 648000) * Real.pi = 0 := by push_cast; linarith
    rcases mul_eq_zero.mp h2 with h | h
    · linarith
    · linarith
  have h3 : (0 : ℝ) < ((l - k : ℤ) : ℝ) := by rw [← mul_pos_iff_of_pos_right (by norm_num : (0 : ℝ) < 2), this]; norm_num
  have h4 : ((l - k : ℤ) : ℝ) < 1 := by
    have : ((l - k : ℤ) : ℝ) * 2 < 1 * 2 := by rw [this]; norm_num
    linarith
  have h5 : (0 : ℤ) < l - k := by exact_mod_cast h3
  have h6 : l - k < (1 : ℤ) := by exact_mod_cast h4
  omega

/-- The first row of the table: the node. -/
example : Whole [⟨[0, 0, 0, 0, 1], -172064161, -174666, 33386, 92052331, 9086, 15377⟩] := by
  intro r hr x hx
  simp only [List.mem_singleton] at hr
  subst hr
  simp only [List.mem_cons, List.not_mem_nil, or_false] at hx
  rcases hx with h | h | h | h | h
  · exact ⟨0, by rw [h]; simp⟩
  · exact ⟨0, by rw [h]; simp⟩
  · exact ⟨0, by rw [h]; simp⟩
  · exact ⟨0, by rw [h]; simp⟩
  · exact ⟨1, by rw [h]; simp⟩

end Verif.Series.Props
