import Verif.Centers.Model
import Verif.Earth.Props

/-!
# Changing centres and frames of positions
-/

namespace Verif.Centers

open Verif.Earth (M3 V3)
open Verif.Earth.Spec (Proper direction pole Chain)
open Verif.Earth.Props
open scoped Matrix

/-! ## Specification -/

namespace Spec

/-- Where each centre is, seen from the barycentre, in ecliptic axes and astronomical units: the
Sun and the Earth as the ephemeris has them, Pluto seen from the Sun and the Moon (in kilometres)
seen from the Earth. -/
structure Located (t : Tables) (eph : Ephemeris) (jd : ℝ) (home : Center → V3) : Prop where
  barycentre : home .barycentric = 0
  sun : home .heliocentric = eph.sun jd
  earth : home .geocentric = eph.earth jd
  planet : ∀ p, home (.planet p) = t.vsop87e p jd
  pluto : home .pluto - home .heliocentric = t.pluto jd
  moon : t.kmPerAu • (home .moon - home .geocentric) = eph.moon jd
  libration : ∀ l, home (.libration l) = t.libration l jd

/-- The centres from and to which every other centre is offered. -/
def Hub (a : Center) : Prop := a = .barycentric ∨ a = .heliocentric ∨ a = .geocentric

/-- A request on a position. -/
inductive Move
  | center (b : Center)
  | frame (g : Frame)
  | both (b : Center) (g : Frame)

/-- A position with the centre and frame it is tagged with. -/
structure Tagged where
  center : Center
  frame : Frame
  x : Fin 3 → ℝ

/-- The body's orientation by the IAU definition (Archinal et al.): seen from ICRS, the pole of
the body has right ascension `α` and declination `δ`; the ascending node of its equator on that of
ICRS lies at right ascension `α + 90°`; and the prime meridian is `W` east of the node, that is,
the node has longitude `−W` in the body's own axes. -/
structure IauOriented (m : M3) (α δ w : ℝ) : Prop where
  proper : Proper m
  pole : m *ᵥ pole = direction α δ
  node : m *ᵥ direction (-w) 0 = direction (α + Real.pi / 2) 0

end Spec

open Spec

/-! ## Frames with the body-fixed ones -/

/-- The rotation from ICRS to each frame. -/
noncomputable def refX (c : Verif.Earth.Ctx) (e : Euler) (jd : ℝ) : Frame → M3
  | .sky f => ref c jd f
  | .fixed b => (bodyFixedToIcrs e (rotationParams b) jd)ᵀ

/-- The Euler rotation is a proper one. -/
def ProperEuler (e : Euler) : Prop := ∀ a b d, Proper (e a b d)

theorem proper_refX {c : Verif.Earth.Ctx} {e : Euler} {jd : ℝ} (h : Sound c jd)
    (he : ProperEuler e) (f : Frame) : Proper (refX c e jd f) := by
  cases f with
  | sky f => exact proper_ref h f
  | fixed b => exact proper_transpose (he _ _ _)

/-- A pair whose rotation leaves out the observed pole offsets. -/
def WithoutOffsetsX : Frame → Frame → Prop
  | .sky a, .sky b => WithoutOffsets a b
  | _, _ => False

theorem to_icrs_value {c : Verif.Earth.Ctx} {jd : ℝ} (h : Sound c jd) {a : Verif.Earth.Frame}
    {m : M3} (hm : Verif.Earth.rotation c jd a .icrs = some m) : m = (ref c jd a)ᵀ := by
  have := rotation_value h (Or.inr (by
    rintro (⟨h1, _⟩ | ⟨_, h1 | h1 | h1⟩) <;> simp at h1)) hm
  rw [this]
  simp [ref]

theorem rotationX_value {c : Verif.Earth.Ctx} {e : Euler} {jd : ℝ} (h : Sound c jd)
    (he : ProperEuler e) {f g : Frame} {m : M3}
    (ho : NoOffsets c jd ∨ ¬WithoutOffsetsX f g) (hm : rotation c e jd f g = some m) :
    m = refX c e jd g * (refX c e jd f)ᵀ := by
  cases f with
  | sky a =>
    cases g with
    | sky b => exact rotation_value h ho hm
    | fixed b =>
      cases a <;> simp only [rotation, reduceCtorEq, Option.some.injEq, Option.map_eq_some_iff] at hm
      · subst hm; simp [refX, ref]
      · obtain ⟨n, hn, rfl⟩ := hm
        rw [to_icrs_value h hn]; rfl
      · obtain ⟨n, hn, rfl⟩ := hm
        rw [to_icrs_value h hn]; rfl
  | fixed a =>
    cases g with
    | sky b =>
      cases b <;> simp only [rotation, reduceCtorEq, Option.some.injEq, Option.map_eq_some_iff] at hm
      · subst hm; simp [refX, ref]
      · obtain ⟨n, hn, rfl⟩ := hm
        rw [to_icrs_value h hn, Matrix.transpose_mul, Matrix.transpose_transpose]; rfl
      · obtain ⟨n, hn, rfl⟩ := hm
        rw [to_icrs_value h hn, Matrix.transpose_mul, Matrix.transpose_transpose]; rfl
    | fixed b =>
      simp only [rotation] at hm
      split at hm
      · rename_i hab
        subst hab
        injection hm with hm
        subst hm
        rw [proper_right (proper_refX h he _)]
      · cases hm

theorem chainX_value {c : Verif.Earth.Ctx} {e : Euler} {jd : ℝ} (h : Sound c jd)
    (he : ProperEuler e) {ok : Frame → Frame → Prop}
    (hok : ∀ a b, ok a b → NoOffsets c jd ∨ ¬WithoutOffsetsX a b) {a b : Frame} {m : M3}
    (hm : Chain (rotation c e jd) ok a b m) : m = refX c e jd b * (refX c e jd a)ᵀ := by
  induction hm with
  | refl => rw [proper_right (proper_refX h he _)]
  | step _ hr hk ih =>
    rw [ih, rotationX_value h he (hok _ _ hk) hr, Matrix.mul_assoc,
      ← Matrix.mul_assoc _ (refX c e jd _), (proper_refX h he _).1, Matrix.one_mul]

/-- **C155.** With the body-fixed frames of the nine bodies in the network, any two chains of
rotations between the same two frames give the same proper rotation, whatever proper rotation the
Euler angles stand for. -/
theorem body_frames_consistent {c : Verif.Earth.Ctx} {e : Euler} {jd : ℝ} (h : Sound c jd)
    (he : ProperEuler e) (ho : NoOffsets c jd) {a b : Frame} {m n : M3}
    (hm : Chain (rotation c e jd) (fun _ _ => True) a b m)
    (hn : Chain (rotation c e jd) (fun _ _ => True) a b n) : m = n ∧ Proper m := by
  have e1 := chainX_value h he (fun _ _ _ => Or.inl ho) hm
  have e2 := chainX_value h he (fun _ _ _ => Or.inl ho) hn
  refine ⟨e1.trans e2.symm, ?_⟩
  rw [e1]
  exact Proper.mul (proper_refX h he _) (proper_transpose (proper_refX h he _))

/-! ## Shifts -/

theorem located_unique {t : Tables} {eph : Ephemeris} {jd : ℝ} (hk : t.kmPerAu ≠ 0)
    {home : Center → V3} (hl : Located t eph jd home) (a : Center) :
    home a = direct t eph jd a := by
  cases a with
  | barycentric => rw [hl.barycentre]; rfl
  | heliocentric => exact hl.sun
  | geocentric => exact hl.earth
  | planet p => exact hl.planet p
  | pluto =>
    have := hl.pluto
    rw [hl.sun, sub_eq_iff_eq_add] at this
    rw [this]; rfl
  | moon =>
    have := hl.moon
    rw [hl.earth] at this
    funext i
    have hi := congrFun this i
    simp only [Pi.smul_apply, Pi.sub_apply, smul_eq_mul] at hi
    show home .moon i = eph.moon jd i / t.kmPerAu + eph.earth jd i
    rw [← hi, mul_div_cancel_left₀ _ hk, sub_add_cancel]
  | libration l => exact hl.libration l

theorem direct_located {t : Tables} {eph : Ephemeris} {jd : ℝ} (hk : t.kmPerAu ≠ 0) :
    Located t eph jd (direct t eph jd) where
  barycentre := rfl
  sun := rfl
  earth := rfl
  planet _ := rfl
  pluto := by funext i; simp [direct]
  moon := by
    funext i
    simp only [Pi.smul_apply, Pi.sub_apply, smul_eq_mul, direct, toAu, add_sub_cancel_right]
    rw [mul_div_cancel₀ _ hk]
  libration _ := rfl

/-- The vector of each step is the difference of the two places. -/
theorem go_value (t : Tables) (eph : Ephemeris) (jd : ℝ) (r : M3) :
    ∀ (n : Nat) (a b : Center) (s : V3), shiftGo t eph jd r n a b = some s →
      s = r *ᵥ (direct t eph jd a - direct t eph jd b) := by
  intro n
  induction n with
  | zero => intro a b s h; cases h
  | succ n ih =>
    intro a b s h
    have neg : ∀ {a b : Center} {s : V3},
        ((shiftGo t eph jd r n b a).map fun s i => -s i) = some s →
        s = r *ᵥ (direct t eph jd a - direct t eph jd b) := by
      intro a b s h
      rw [Option.map_eq_some_iff] at h
      obtain ⟨q, hq, rfl⟩ := h
      rw [ih _ _ _ hq]
      show -(r *ᵥ (direct t eph jd b - direct t eph jd a)) = _
      rw [← Matrix.mulVec_neg, neg_sub]
    have via : ∀ {a b : Center} {s : V3},
        ((shiftGo t eph jd r n a .barycentric).bind fun l =>
          (shiftGo t eph jd r n .barycentric b).map fun s i => l i + s i) = some s →
        s = r *ᵥ (direct t eph jd a - direct t eph jd b) := by
      intro a b s h
      rw [Option.bind_eq_some_iff] at h
      obtain ⟨l, hl, h⟩ := h
      rw [Option.map_eq_some_iff] at h
      obtain ⟨q, hq, rfl⟩ := h
      rw [ih _ _ _ hl, ih _ _ _ hq]
      show r *ᵥ _ + r *ᵥ _ = _
      rw [← Matrix.mulVec_add]
      congr 1
      abel
    have zero : ∀ {a : Center} {s : V3}, (some (fun _ => (0 : ℝ)) : Option V3) = some s →
        s = r *ᵥ (direct t eph jd a - direct t eph jd a) := by
      intro a s h
      injection h with h
      subst h
      rw [sub_self, Matrix.mulVec_zero]
      rfl
    have rot : ∀ {a : Center} {s : V3}, some (r *ᵥ direct t eph jd a) = some s →
        s = r *ᵥ (direct t eph jd a - direct t eph jd .barycentric) := by
      intro a s h
      injection h with h
      subst h
      congr 1
      funext i
      simp [direct]
    have same : ∀ {a b : Center} {s : V3},
        (match (if a = b then some Step.zero else none) with
          | none => none
          | some .zero => some fun _ => 0
          | some (.rotated v) => some (r.mulVec v)
          | some .inverse => (shiftGo t eph jd r n b a).map fun s i => -s i
          | some .viaBarycentre =>
            (shiftGo t eph jd r n a .barycentric).bind fun l =>
              (shiftGo t eph jd r n .barycentric b).map fun s i => l i + s i) = some s →
        s = r *ᵥ (direct t eph jd a - direct t eph jd b) := by
      intro a b s h
      by_cases hab : a = b
      · subst hab
        rw [if_pos rfl] at h
        exact zero h
      · rw [if_neg hab] at h
        cases h
    have moon : ∀ {s : V3}, some (r *ᵥ fun i => -toAu t (eph.moon jd) i) = some s →
        s = r *ᵥ (direct t eph jd .geocentric - direct t eph jd .moon) := by
      intro s h
      injection h with h
      subst h
      congr 1
      funext i
      simp [direct]
    cases a <;> cases b <;>
      first
        | exact zero h
        | exact rot h
        | exact moon h
        | exact neg h
        | exact via h
        | exact same h

theorem shift_value {c : Verif.Earth.Ctx} {e : Euler} {t : Tables} {eph : Ephemeris} {jd : ℝ}
    {f : Frame} {a b : Center} {v : V3} {m : M3}
    (hm : rotation c e jd (.sky .eclipticJ2000) f = some m)
    (hs : shift c e t eph jd f a b = some v) :
    v = m *ᵥ (direct t eph jd a - direct t eph jd b) := by
  unfold shift at hs
  split at hs
  · rename_i hab
    subst hab
    injection hs with hs
    subst hs
    rw [sub_self, Matrix.mulVec_zero]
    rfl
  · rw [hm] at hs
    exact go_value t eph jd m 4 a b v hs

/-- **C154.** The shift between two centres, in any frame, is the vector from the second to the
first: the ecliptic difference of their places, turned into the frame.  In particular it is the
same whether the implementation goes directly, backwards, or through the barycentre. -/
theorem shift_is_difference {c : Verif.Earth.Ctx} {e : Euler} {t : Tables} {eph : Ephemeris}
    {jd : ℝ} (hk : t.kmPerAu ≠ 0) {home : Center → V3} (hl : Located t eph jd home)
    {f : Frame} {a b : Center} {v : V3} {m : M3}
    (hm : rotation c e jd (.sky .eclipticJ2000) f = some m)
    (hs : shift c e t eph jd f a b = some v) : v = m *ᵥ (home a - home b) := by
  rw [located_unique hk hl a, located_unique hk hl b]
  exact shift_value hm hs

theorem go_exists (t : Tables) (eph : Ephemeris) (jd : ℝ) (r : M3) (a b : Center) :
    (shiftGo t eph jd r 4 a b).isSome ↔ a = b ∨ Hub a ∨ Hub b := by
  cases a <;> cases b <;>
    first
      | (simp only [Hub, reduceCtorEq, or_false, or_true, true_or, iff_true, false_or]
         rfl)
      | (simp only [Hub, reduceCtorEq, or_false, Center.planet.injEq, Center.libration.injEq,
          shiftGo, step]
         split_ifs <;> simp_all)
      | (simp [Hub, shiftGo, step])

/-- **C154.** A shift is offered exactly when the centres are the same, or one of them is the
barycentre, the Sun or the Earth and the frame can be reached from the ecliptic. -/
theorem shift_exists (c : Verif.Earth.Ctx) (e : Euler) (t : Tables) (eph : Ephemeris) (jd : ℝ)
    (f : Frame) (a b : Center) :
    (shift c e t eph jd f a b).isSome ↔
      a = b ∨ (Hub a ∨ Hub b) ∧ (rotation c e jd (.sky .eclipticJ2000) f).isSome := by
  unfold shift
  by_cases hab : a = b
  · rw [if_pos hab]; simp [hab]
  · rw [if_neg hab]
    cases hr : rotation c e jd (.sky .eclipticJ2000) f with
    | none => simp [hab]
    | some r =>
      rw [Option.bind_some, go_exists]
      simp [hab]

/-! ## Journeys -/

/-- One request. -/
noncomputable def perform (c : Verif.Earth.Ctx) (e : Euler) (t : Tables) (eph : Ephemeris)
    (jd k : ℝ) (p : Tagged) : Move → Option Tagged
  | .center b => (toCenter c e t eph jd k p.frame p.center b p.x).map fun x => ⟨b, p.frame, x⟩
  | .frame g => (toFrame c e jd p.frame g p.x).map fun x => ⟨p.center, g, x⟩
  | .both b g =>
    (toBoth c e t eph jd k p.frame g p.center b p.x).map fun x => ⟨b, g, x⟩

/-- A sequence of requests. -/
noncomputable def journey (c : Verif.Earth.Ctx) (e : Euler) (t : Tables) (eph : Ephemeris)
    (jd k : ℝ) : Tagged → List Move → Option Tagged
  | p, [] => some p
  | p, m :: l => (perform c e t eph jd k p m).bind fun q => journey c e t eph jd k q l

/-- The point of space a tagged position stands for, seen from the barycentre in ICRS axes. -/
noncomputable def place (c : Verif.Earth.Ctx) (e : Euler) (t : Tables) (eph : Ephemeris)
    (jd k : ℝ) (p : Tagged) : V3 :=
  (refX c e jd p.frame)ᵀ *ᵥ p.x
    + k • ((refX c e jd (.sky .eclipticJ2000))ᵀ *ᵥ direct t eph jd p.center)

theorem center_place {c : Verif.Earth.Ctx} {e : Euler} {t : Tables} {eph : Ephemeris} {jd k : ℝ}
    (h : Sound c jd) (he : ProperEuler e) {f : Frame} {a b : Center} {x y : V3}
    (hy : toCenter c e t eph jd k f a b x = some y) :
    place c e t eph jd k ⟨b, f, y⟩ = place c e t eph jd k ⟨a, f, x⟩ := by
  unfold toCenter at hy
  rw [Option.map_eq_some_iff] at hy
  obtain ⟨s, hs, rfl⟩ := hy
  by_cases hab : a = b
  · subst hab
    unfold shift at hs
    rw [if_pos rfl] at hs
    injection hs with hs
    subst hs
    simp
  · have hs' := hs
    unfold shift at hs'
    rw [if_neg hab] at hs'
    rw [Option.bind_eq_some_iff] at hs'
    obtain ⟨m, hm, _⟩ := hs'
    have hv := shift_value hm hs
    have hmv := rotationX_value h he (Or.inr (by
      cases f with
      | sky g =>
        show ¬WithoutOffsets _ _
        rintro (⟨_, h1 | h1 | h1⟩ | ⟨h1, _⟩) <;> simp at h1
      | fixed b => exact id)) hm
    unfold place
    simp only
    have : (fun i => x i + k * s i) = x + k • s := rfl
    rw [this, Matrix.mulVec_add, Matrix.mulVec_smul, hv, hmv, Matrix.mulVec_mulVec,
      ← Matrix.mul_assoc, (proper_refX h he _).1, Matrix.one_mul, Matrix.mulVec_sub, smul_sub]
    abel

theorem frame_place {c : Verif.Earth.Ctx} {e : Euler} {t : Tables} {eph : Ephemeris} {jd k : ℝ}
    (h : Sound c jd) (he : ProperEuler e) {f g : Frame} {a : Center} {x y : V3}
    (ho : NoOffsets c jd ∨ ¬WithoutOffsetsX f g)
    (hy : toFrame c e jd f g x = some y) :
    place c e t eph jd k ⟨a, g, y⟩ = place c e t eph jd k ⟨a, f, x⟩ := by
  unfold toFrame at hy
  rw [Option.map_eq_some_iff] at hy
  obtain ⟨m, hm, rfl⟩ := hy
  unfold place
  simp only
  rw [rotationX_value h he ho hm, Matrix.mulVec_mulVec, ← Matrix.mul_assoc,
    (proper_refX h he _).1, Matrix.one_mul]

/-- The move does not step directly between the true equator of date and a mean equator. -/
def Plain (f : Frame) : Move → Prop
  | .center _ => True
  | .frame g => ¬WithoutOffsetsX f g
  | .both _ g => ¬WithoutOffsetsX f g

theorem perform_place {c : Verif.Earth.Ctx} {e : Euler} {t : Tables} {eph : Ephemeris} {jd k : ℝ}
    (h : Sound c jd) (he : ProperEuler e) {p q : Tagged} {m : Move}
    (ho : NoOffsets c jd ∨ Plain p.frame m) (hq : perform c e t eph jd k p m = some q) :
    place c e t eph jd k q = place c e t eph jd k p := by
  cases m with
  | center b =>
    simp only [perform, Option.map_eq_some_iff] at hq
    obtain ⟨y, hy, rfl⟩ := hq
    exact center_place h he hy
  | frame g =>
    simp only [perform, Option.map_eq_some_iff] at hq
    obtain ⟨y, hy, rfl⟩ := hq
    exact frame_place h he ho hy
  | both b g =>
    simp only [perform, Option.map_eq_some_iff] at hq
    obtain ⟨y, hy, rfl⟩ := hq
    unfold toBoth at hy
    rw [Option.bind_eq_some_iff] at hy
    obtain ⟨z, hz, hy⟩ := hy
    exact (frame_place h he ho hy).trans (center_place h he hz)

theorem journey_place {c : Verif.Earth.Ctx} {e : Euler} {t : Tables} {eph : Ephemeris} {jd k : ℝ}
    (h : Sound c jd) (he : ProperEuler e) (ho : NoOffsets c jd) (l : List Move) :
    ∀ {p q : Tagged}, journey c e t eph jd k p l = some q →
      place c e t eph jd k q = place c e t eph jd k p := by
  induction l with
  | nil =>
    intro p q hq
    injection hq with hq
    rw [hq]
  | cons m l ih =>
    intro p q hq
    unfold journey at hq
    rw [Option.bind_eq_some_iff] at hq
    obtain ⟨r, hr, hq⟩ := hq
    exact (ih hq).trans (perform_place h he (Or.inl ho) hr)

theorem place_injective {c : Verif.Earth.Ctx} {e : Euler} {t : Tables} {eph : Ephemeris}
    {jd k : ℝ} (h : Sound c jd) (he : ProperEuler e) {a : Center} {f : Frame} {x y : V3}
    (hp : place c e t eph jd k ⟨a, f, x⟩ = place c e t eph jd k ⟨a, f, y⟩) : x = y := by
  unfold place at hp
  simp only [add_left_inj] at hp
  have := congrArg (fun v => refX c e jd f *ᵥ v) hp
  simpa only [Matrix.mulVec_mulVec, proper_right (proper_refX h he f), Matrix.one_mulVec] using this

/-- **C154.** However a position is recentred and turned — any sequences of changes of centre, of
frame, or of both at once — two sequences that start at the same position and end with the same
centre and frame give the same coordinates; a sequence that returns to its centre and frame returns
the position it began with. -/
theorem journeys_agree {c : Verif.Earth.Ctx} {e : Euler} {t : Tables} {eph : Ephemeris}
    {jd k : ℝ} (h : Sound c jd) (he : ProperEuler e) (ho : NoOffsets c jd) (l l' : List Move)
    {p q q' : Tagged} (hq : journey c e t eph jd k p l = some q)
    (hq' : journey c e t eph jd k p l' = some q')
    (hc : q.center = q'.center) (hf : q.frame = q'.frame) : q = q' := by
  have e1 := journey_place h he ho l hq
  have e2 := journey_place h he ho l' hq'
  rcases q with ⟨a, f, x⟩
  rcases q' with ⟨a', f', x'⟩
  simp only at hc hf
  subst hc hf
  rw [place_injective h he (e1.trans e2.symm)]

/-- **C154.** Two positions taken through the same journey keep their distance. -/
theorem journey_rigid {c : Verif.Earth.Ctx} {e : Euler} {t : Tables} {eph : Ephemeris}
    {jd k : ℝ} (h : Sound c jd) (he : ProperEuler e) (ho : NoOffsets c jd) (l : List Move)
    {a : Center} {f : Frame} {x y : V3} {q q' : Tagged}
    (hq : journey c e t eph jd k ⟨a, f, x⟩ l = some q)
    (hq' : journey c e t eph jd k ⟨a, f, y⟩ l = some q') :
    (q.x - q'.x) ⬝ᵥ (q.x - q'.x) = (x - y) ⬝ᵥ (x - y) := by
  have tags : ∀ (l : List Move) {p p' q q' : Tagged}, p.center = p'.center → p.frame = p'.frame →
      journey c e t eph jd k p l = some q → journey c e t eph jd k p' l = some q' →
      q.center = q'.center ∧ q.frame = q'.frame := by
    intro l
    induction l with
    | nil =>
      intro p p' q q' h1 h2 hq hq'
      injection hq with hq
      injection hq' with hq'
      subst hq hq'
      exact ⟨h1, h2⟩
    | cons m l ih =>
      intro p p' q q' h1 h2 hq hq'
      unfold journey at hq hq'
      rw [Option.bind_eq_some_iff] at hq hq'
      obtain ⟨r, hr, hq⟩ := hq
      obtain ⟨r', hr', hq'⟩ := hq'
      refine ih ?_ ?_ hq hq' <;>
      · cases m <;>
          (simp only [perform, Option.map_eq_some_iff] at hr hr'
           obtain ⟨_, _, rfl⟩ := hr
           obtain ⟨_, _, rfl⟩ := hr'
           first | rfl | exact h1 | exact h2)
  obtain ⟨h1, h2⟩ := tags l (p := ⟨a, f, x⟩) (p' := ⟨a, f, y⟩) rfl rfl hq hq'
  have e1 := journey_place h he ho l hq
  have e2 := journey_place h he ho l hq'
  have iso : ∀ {m : M3}, Proper m → ∀ v : V3, (mᵀ *ᵥ v) ⬝ᵥ (mᵀ *ᵥ v) = v ⬝ᵥ v := by
    intro m hm v
    rw [Matrix.dotProduct_mulVec, Matrix.vecMul_transpose, Matrix.mulVec_mulVec, proper_right hm,
      Matrix.one_mulVec]
  have key : (refX c e jd q.frame)ᵀ *ᵥ (q.x - q'.x) = (refX c e jd f)ᵀ *ᵥ (x - y) := by
    have d := congrArg₂ (fun u v : V3 => u - v) e1 e2
    simp only [place, h1, h2, add_sub_add_right_eq_sub, ← Matrix.mulVec_sub] at d
    rw [h2]
    exact d
  rw [← iso (proper_refX h he q.frame) (q.x - q'.x), key, iso (proper_refX h he f)]

/-- **C154.** Turning first and recentring afterwards is the same as recentring first, which is
what the combined request does. -/
theorem order_irrelevant {c : Verif.Earth.Ctx} {e : Euler} {t : Tables} {eph : Ephemeris}
    {jd k : ℝ} (h : Sound c jd) (he : ProperEuler e) (ho : NoOffsets c jd) {f g : Frame}
    {a b : Center} {x y z w : V3} (hy : toBoth c e t eph jd k f g a b x = some y)
    (hz : toFrame c e jd f g x = some z) (hw : toCenter c e t eph jd k g a b z = some w) :
    y = w := by
  have := journeys_agree h he ho (k := k) (t := t) (eph := eph) [.both b g] [.frame g, .center b]
    (p := ⟨a, f, x⟩) (q := ⟨b, g, y⟩) (q' := ⟨b, g, w⟩)
    (by simp [journey, perform, hy]) (by simp [journey, perform, hz, hw]) rfl rfl
  exact congrArg Tagged.x this

/-- **C154.** `transform` turns the frame first and moves the centre afterwards, `to_with` the other way
round: the positions are the same. -/
theorem transform_eq_to_with {c : Verif.Earth.Ctx} {e : Euler} {t : Tables} {eph : Ephemeris}
    {jd k : ℝ} (h : Sound c jd) (he : ProperEuler e) (ho : NoOffsets c jd) {f g : Frame}
    {a b : Center} {x y w : V3} (hy : toBoth c e t eph jd k f g a b x = some y)
    (hw : transform c e t eph jd k f g a b x = some w) : y = w := by
  obtain ⟨z, hz, hw⟩ := Option.bind_eq_some_iff.mp hw
  exact order_irrelevant h he ho hy hz hw

/-- **C154 (finding).** A planet's shift to the barycentre does not depend on the ephemeris of the
context: with any ephemeris it is the built-in series. -/
theorem planets_ignore_ephemeris (c : Verif.Earth.Ctx) (e : Euler) (t : Tables)
    (eph eph' : Ephemeris) (jd : ℝ) (f : Frame) (p : Planet) :
    shift c e t eph jd f (.planet p) .barycentric
      = shift c e t eph' jd f (.planet p) .barycentric := rfl

/-- **C154 (finding).** So a planet is seen from the Sun or the Earth with the one end taken from
the ephemeris and the other from the series: if the ephemeris moves the Sun by `d` together with
everything it knows about, the heliocentric place of the planet moves by `−d`. -/
theorem planets_mix_sources {c : Verif.Earth.Ctx} {e : Euler} {t : Tables} {eph eph' : Ephemeris}
    {jd : ℝ} {d : V3} (hd : eph'.sun jd = eph.sun jd + d) {f : Frame} {p : Planet} {v v' : V3}
    {m : M3} (hm : rotation c e jd (.sky .eclipticJ2000) f = some m)
    (hv : shift c e t eph jd f (.planet p) .heliocentric = some v)
    (hv' : shift c e t eph' jd f (.planet p) .heliocentric = some v') :
    v' = v - m *ᵥ d := by
  rw [shift_value hm hv, shift_value hm hv',
    ← Matrix.mulVec_sub]
  congr 1
  show t.vsop87e p jd - eph'.sun jd = t.vsop87e p jd - eph.sun jd - d
  rw [hd]
  abel

/-! ## The orientation of the body-fixed frames -/

/-- The rotation of the IAU definition. -/
noncomputable def iau (α δ w : ℝ) : M3 :=
  Verif.Earth.rz (α + Real.pi / 2) * Verif.Earth.rx (Real.pi / 2 - δ) * Verif.Earth.rz w

theorem rz_direction (a l b : ℝ) : Verif.Earth.rz a *ᵥ direction l b = direction (l + a) b := by
  funext i
  fin_cases i <;>
    simp [Verif.Earth.rz, direction, Matrix.mulVec, dotProduct, Fin.sum_univ_three,
      Real.cos_add, Real.sin_add] <;> ring

theorem rz_pole (a : ℝ) : Verif.Earth.rz a *ᵥ pole = pole := by
  funext i
  fin_cases i <;>
    simp [Verif.Earth.rz, pole, Matrix.mulVec, dotProduct, Fin.sum_univ_three]

theorem rx_node (a : ℝ) : Verif.Earth.rx a *ᵥ direction 0 0 = direction 0 0 := by
  funext i
  fin_cases i <;>
    simp [Verif.Earth.rx, direction, Matrix.mulVec, dotProduct, Fin.sum_univ_three]

theorem rx_pole (d : ℝ) :
    Verif.Earth.rx (Real.pi / 2 - d) *ᵥ pole = direction (-(Real.pi / 2)) d := by
  funext i
  fin_cases i <;>
    simp [Verif.Earth.rx, direction, pole, Matrix.mulVec, dotProduct, Fin.sum_univ_three,
      Real.sin_pi_div_two_sub, Real.cos_pi_div_two_sub]

theorem iau_oriented (α δ w : ℝ) : IauOriented (iau α δ w) α δ w where
  proper := Proper.mul (Proper.mul (proper_rz _) (proper_rx _)) (proper_rz _)
  pole := by
    rw [iau, ← Matrix.mulVec_mulVec, rz_pole, ← Matrix.mulVec_mulVec, rx_pole, rz_direction]
    congr 1
    ring
  node := by
    rw [iau, ← Matrix.mulVec_mulVec, rz_direction, neg_add_cancel, ← Matrix.mulVec_mulVec, rx_node,
      rz_direction, zero_add]

/-- A proper rotation that leaves the pole and the first axis alone is the identity. -/
theorem fixed_two {m : M3} (h : Proper m) (h1 : m *ᵥ pole = pole)
    (h2 : m *ᵥ direction 0 0 = direction 0 0) : m = 1 := by
  have c2 : ∀ i, m i 2 = pole i := by
    intro i
    have := congrFun h1 i
    simpa [pole, Matrix.mulVec, dotProduct, Fin.sum_univ_three] using this
  have c0 : ∀ i, m i 0 = direction 0 0 i := by
    intro i
    have := congrFun h2 i
    simpa [direction, Matrix.mulVec, dotProduct, Fin.sum_univ_three] using this
  have o := h.1
  have e02 : m 0 1 = 0 := by
    have := congrFun (congrFun o 0) 1
    simp [Matrix.mul_apply, Fin.sum_univ_three, c0, direction] at this
    exact this
  have e22 : m 2 1 = 0 := by
    have := congrFun (congrFun o 2) 1
    simp [Matrix.mul_apply, Fin.sum_univ_three, c2, pole] at this
    exact this
  have e12 : m 1 1 = 1 := by
    have := h.2
    rw [Matrix.det_fin_three] at this
    simp [c0, c2, direction, pole, e02, e22] at this
    exact this
  ext i j
  fin_cases i <;> fin_cases j <;> simp [c0, c2, direction, pole, e02, e22, e12]

/-- **C155.** The definition determines the rotation. -/
theorem iau_unique {m : M3} {α δ w : ℝ} : IauOriented m α δ w ↔ m = iau α δ w := by
  constructor
  · intro h
    have k := iau_oriented α δ w
    -- `iau⁻¹ m`, conjugated so that the node is the first axis, fixes two axes
    have hp : Proper (Verif.Earth.rz w * ((iau α δ w)ᵀ * m) * Verif.Earth.rz (-w)) :=
      Proper.mul (Proper.mul (proper_rz _) (Proper.mul (proper_transpose k.proper) h.proper))
        (proper_rz _)
    have back : ∀ {u v : V3}, m *ᵥ u = v → iau α δ w *ᵥ u = v → ((iau α δ w)ᵀ * m) *ᵥ u = u := by
      intro u v hu hv
      rw [← Matrix.mulVec_mulVec, hu, ← hv, Matrix.mulVec_mulVec, k.proper.1, Matrix.one_mulVec]
    have b1 := back h.pole k.pole
    have b2 := back h.node k.node
    have one := fixed_two hp
      (by rw [← Matrix.mulVec_mulVec, rz_pole, ← Matrix.mulVec_mulVec, b1, rz_pole])
      (by rw [← Matrix.mulVec_mulVec, rz_direction, zero_add, ← Matrix.mulVec_mulVec, b2,
            rz_direction, neg_add_cancel])
    have mid : (iau α δ w)ᵀ * m = 1 := by
      have c1 : Verif.Earth.rz (-w) * Verif.Earth.rz w = 1 := by
        rw [← rz_add, neg_add_cancel, rz_zero]
      have := congrArg (fun q => Verif.Earth.rz (-w) * q * Verif.Earth.rz w) one
      simp only [Matrix.mul_one, c1] at this
      rw [← this]
      simp only [Matrix.mul_assoc, c1, Matrix.mul_one]
      rw [← Matrix.mul_assoc (Verif.Earth.rz (-w)), c1, Matrix.one_mul]
    calc m = (iau α δ w * (iau α δ w)ᵀ) * m := by rw [proper_right k.proper, Matrix.one_mul]
      _ = iau α δ w := by rw [Matrix.mul_assoc, mid, Matrix.mul_one]
  · rintro rfl
    exact iau_oriented α δ w

/-- Right ascension and declination of the pole and the place of the prime meridian, in degrees, as
the report of the IAU working group prints them without their periodic terms; `T` in Julian
centuries, `d` in days. -/
noncomputable def published (b : Body) (T d : ℝ) : ℝ × ℝ × ℝ :=
  match b with
  | .mercury => (281.0103 - 0.0328 * T, 61.4155 - 0.0049 * T, 329.5988 + 6.1385108 * d)
  | .venus => (272.76, 67.16, 160.20 - 1.4813688 * d)
  | .mars => (317.269 - 0.10927 * T, 54.432 - 0.05827 * T, 176.049 + 350.891982443 * d)
  | .moon => (269.9949 + 0.0031 * T, 66.5392 + 0.0130 * T, 38.3213 + 13.17635815 * d)
  | .jupiter => (268.057 - 0.006 * T, 64.495 + 0.002 * T, 284.95 + 870.536 * d)
  | .saturn => (40.589 - 0.036 * T, 83.537 - 0.004 * T, 38.90 + 810.7939024 * d)
  | .uranus => (257.311, -15.175, 203.81 - 501.1600928 * d)
  | .neptune => (299.36, 43.46, 249.978 + 541.1397757 * d)
  | .pluto => (132.993, -6.163, 302.695 + 56.3625225 * d)

/-- Julian centuries and days from J2000. -/
noncomputable def ofDate (b : Body) (jd : ℝ) : ℝ × ℝ × ℝ := published b ((jd - 2451545) / 36525) (jd - 2451545)

/-- The body's angles, in radians. -/
noncomputable def alphaOf (b : Body) (jd : ℝ) : ℝ := (ofDate b jd).1 * (Real.pi / 180)
noncomputable def deltaOf (b : Body) (jd : ℝ) : ℝ := (ofDate b jd).2.1 * (Real.pi / 180)
noncomputable def wOf (b : Body) (jd : ℝ) : ℝ := (ofDate b jd).2.2 * (Real.pi / 180)

/-- The angles are the published ones, for each of the nine bodies and every date. -/
theorem angles_published (b : Body) (jd : ℝ) :
    (alphaDeg (rotationParams b) jd, deltaDeg (rotationParams b) jd, wDeg (rotationParams b) jd) = ofDate b jd := by
  cases b <;> simp only [alphaDeg, deltaDeg, wDeg, rotationParams, ofDate, published, Prod.mk.injEq] <;>
    refine ⟨?_, ?_, ?_⟩ <;> push_cast <;> ring

theorem alphaOf_eq (b : Body) (jd : ℝ) : rad (alphaDeg (rotationParams b) jd) = alphaOf b jd := by
  rw [alphaOf, ← angles_published]; unfold rad; ring
theorem deltaOf_eq (b : Body) (jd : ℝ) : rad (deltaDeg (rotationParams b) jd) = deltaOf b jd := by
  rw [deltaOf, ← angles_published]; unfold rad; ring
theorem wOf_eq (b : Body) (jd : ℝ) : rad (wDeg (rotationParams b) jd) = wOf b jd := by
  rw [wOf, ← angles_published]; unfold rad; ring

/-- The readings of `from_euler_zxz z₁ x z₂`: products of active rotations in either order, and
the same of rotations of the axes instead. -/
noncomputable def activeLeft : Euler := fun a b d =>
  Verif.Earth.rz a * Verif.Earth.rx b * Verif.Earth.rz d
noncomputable def activeRight : Euler := fun a b d =>
  Verif.Earth.rz d * Verif.Earth.rx b * Verif.Earth.rz a
noncomputable def passiveLeft : Euler := fun a b d =>
  Verif.Earth.rz (-a) * Verif.Earth.rx (-b) * Verif.Earth.rz (-d)
noncomputable def passiveRight : Euler := fun a b d =>
  Verif.Earth.rz (-d) * Verif.Earth.rx (-b) * Verif.Earth.rz (-a)

theorem rad_90 : rad 90 = Real.pi / 2 := by unfold rad; ring

/-- **C155.** If the Euler rotation is the product of axis rotations read right to left, the
body-fixed frame has the orientation of the IAU definition, for each of the nine bodies. -/
theorem passive_right_oriented (b : Body) (jd : ℝ) :
    IauOriented (bodyFixedToIcrs passiveRight (rotationParams b) jd) (alphaOf b jd) (deltaOf b jd)
      (wOf b jd) := by
  rw [iau_unique]
  simp only [bodyFixedToIcrs, passiveRight, neg_neg, iau, rad_90, alphaOf_eq, deltaOf_eq, wOf_eq]

/-- **C155.** If it is the product of active rotations read left to right — the sense in which the
same crate's elementary rotations are used everywhere else (frame_bias.rs:23) — the matrix is the
inverse of the right one: it takes ICRS to the body's axes. -/
theorem active_left_inverse (b : Body) (jd : ℝ) :
    IauOriented (bodyFixedToIcrs activeLeft (rotationParams b) jd)ᵀ (alphaOf b jd) (deltaOf b jd)
      (wOf b jd) := by
  rw [iau_unique]
  simp only [bodyFixedToIcrs, activeLeft, Matrix.transpose_mul, rz_transpose, rx_transpose, neg_neg,
    iau, rad_90, alphaOf_eq, deltaOf_eq, wOf_eq, Matrix.mul_assoc]

theorem rad_sin_pos {x : ℝ} (h0 : 0 < x) (h1 : x < 180) : 0 < Real.sin (rad x) := by
  have hp := Real.pi_pos
  apply Real.sin_pos_of_pos_of_lt_pi
  · unfold rad; positivity
  · unfold rad
    rw [div_lt_iff₀ (by norm_num)]
    nlinarith

theorem rad_cos_pos {x : ℝ} (h0 : -90 < x) (h1 : x < 90) : 0 < Real.cos (rad x) := by
  have hp := Real.pi_pos
  apply Real.cos_pos_of_mem_Ioo
  constructor
  · unfold rad
    rw [lt_div_iff₀ (by norm_num)]
    nlinarith
  · unfold rad
    rw [div_lt_iff₀ (by norm_num)]
    nlinarith

/-- **C155 (finding).** Read as a product of active rotations in either order, or of axis rotations
left to right, the matrix is not the body's orientation: for Mars at J2000 none of the three puts
the pole where the constants say it is. -/
theorem other_readings_misplace_pole :
    ∀ e ∈ [activeLeft, activeRight, passiveLeft],
      bodyFixedToIcrs e (rotationParams .mars) 2451545 *ᵥ pole
        ≠ direction (alphaOf .mars 2451545) (deltaOf .mars 2451545) := by
  have ha : alphaDeg (rotationParams .mars) 2451545 = 317.269 := by
    simp [alphaDeg, rotationParams]
  have hd : deltaDeg (rotationParams .mars) 2451545 = 54.432 := by
    simp [deltaDeg, rotationParams]
  have hw : wDeg (rotationParams .mars) 2451545 = 176.049 := by
    simp [wDeg, rotationParams]
  have sα : Real.sin (rad 317.269) < 0 := by
    have : rad 317.269 = -rad (42.731) + 2 * Real.pi := by unfold rad; ring
    rw [this, Real.sin_add_two_pi, Real.sin_neg]
    linarith [rad_sin_pos (x := 42.731) (by norm_num) (by norm_num)]
  have sα' : 0 < Real.cos (rad 317.269) := by
    have : rad 317.269 = -rad (42.731) + 2 * Real.pi := by unfold rad; ring
    rw [this, Real.cos_add_two_pi, Real.cos_neg]
    exact rad_cos_pos (by norm_num) (by norm_num)
  have cδ : 0 < Real.cos (rad 54.432) := rad_cos_pos (by norm_num) (by norm_num)
  have sw : 0 < Real.sin (rad 176.049) := rad_sin_pos (by norm_num) (by norm_num)
  have cw : Real.cos (rad 176.049) < 0 := by
    have : rad 176.049 = Real.pi - rad 3.951 := by unfold rad; ring
    rw [this, Real.cos_pi_sub]
    linarith [rad_cos_pos (x := 3.951) (by norm_num) (by norm_num)]
  have hx : ∀ s : ℝ, Verif.Earth.rx s *ᵥ pole = ![0, -Real.sin s, Real.cos s] := by
    intro s
    funext i
    fin_cases i <;>
      simp [Verif.Earth.rx, pole, Matrix.mulVec, dotProduct, Fin.sum_univ_three]
  have hz : ∀ s y z : ℝ, (Verif.Earth.rz s *ᵥ ![0, y, z]) = ![-Real.sin s * y, Real.cos s * y, z] := by
    intro s y z
    funext i
    fin_cases i <;>
      simp [Verif.Earth.rz, Matrix.mulVec, dotProduct, Fin.sum_univ_three]
  intro e he
  simp only [List.mem_cons, List.mem_nil_iff, or_false] at he
  rcases he with rfl | rfl | rfl
  · -- active, left to right: the first coordinate has the wrong sign
    intro h
    have h0 := congrFun h 0
    simp only [bodyFixedToIcrs, activeLeft, ← Matrix.mulVec_mulVec, rz_pole, hx, hz, rad_90,
      ← alphaOf_eq, ← deltaOf_eq, ha, hd, hw, direction, Real.sin_neg, Real.cos_neg,
      Real.sin_pi_div_two_sub, neg_neg, Matrix.cons_val_zero] at h0
    have h1 := congrFun h 1
    simp only [bodyFixedToIcrs, activeLeft, ← Matrix.mulVec_mulVec, rz_pole, hx, hz, rad_90,
      ← alphaOf_eq, ← deltaOf_eq, ha, hd, hw, direction, Real.sin_neg, Real.cos_neg,
      Real.sin_pi_div_two_sub, neg_neg, Matrix.cons_val_one, Matrix.cons_val_zero] at h1
    -- `sin W = cos α` and `cos W = sin α`
    have e0 : Real.sin (rad 176.049) = Real.cos (rad 317.269) := by
      apply mul_left_cancel₀ cδ.ne'
      linarith
    have lt : Real.sin (rad 176.049) < Real.cos (rad 317.269) := by
      have a1 : Real.sin (rad 176.049) = Real.cos (rad 86.049) := by
        rw [← Real.cos_pi_div_two_sub, ← Real.cos_neg]
        congr 1
        unfold rad; ring
      have a2 : Real.cos (rad 317.269) = Real.cos (rad 42.731) := by
        have : rad 317.269 = -rad (42.731) + 2 * Real.pi := by unfold rad; ring
        rw [this, Real.cos_add_two_pi, Real.cos_neg]
      rw [a1, a2]
      have hp := Real.pi_pos
      apply Real.cos_lt_cos_of_nonneg_of_le_pi
      · unfold rad; positivity
      · unfold rad; rw [div_le_iff₀ (by norm_num)]; nlinarith
      · unfold rad; apply div_lt_div_of_pos_right _ (by norm_num); nlinarith
    exact absurd e0 lt.ne
  · intro h
    have h1 := congrFun h 1
    simp only [bodyFixedToIcrs, activeRight, ← Matrix.mulVec_mulVec, rz_pole, hx, hz, rad_90,
      ← alphaOf_eq, ← deltaOf_eq, ha, hd, hw, direction, Real.sin_neg, Real.cos_neg,
      Real.sin_pi_div_two_sub, neg_neg, Matrix.cons_val_one, Matrix.cons_val_zero,
      Real.cos_add_pi_div_two] at h1
    nlinarith [mul_pos cδ (neg_pos.mpr sα)]
  · intro h
    have h0 := congrFun h 0
    simp only [bodyFixedToIcrs, passiveLeft, ← Matrix.mulVec_mulVec, rz_pole, hx, hz, rad_90,
      ← alphaOf_eq, ← deltaOf_eq, ha, hd, hw, direction, neg_neg,
      Real.sin_pi_div_two_sub, Matrix.cons_val_zero] at h0
    have h1 := congrFun h 1
    simp only [bodyFixedToIcrs, passiveLeft, ← Matrix.mulVec_mulVec, rz_pole, hx, hz, rad_90,
      ← alphaOf_eq, ← deltaOf_eq, ha, hd, hw, direction, neg_neg,
      Real.sin_pi_div_two_sub, Matrix.cons_val_one, Matrix.cons_val_zero] at h1
    nlinarith [mul_pos cδ (neg_pos.mpr sα), mul_pos cδ (neg_pos.mpr cw)]

/-! ## Instances -/

/-- An ephemeris and tables with everything on the first axis. -/
noncomputable def plainEphemeris : Ephemeris where
  sun _ := ![1, 0, 0]
  earth _ := ![2, 0, 0]
  moon _ := ![300, 0, 0]

noncomputable def plainTables : Tables where
  vsop87e _ _ := ![5, 0, 0]
  pluto _ := ![40, 0, 0]
  libration _ _ := ![3, 0, 0]
  kmPerAu := 100

theorem passiveRight_proper : ProperEuler passiveRight := fun _ _ _ =>
  Proper.mul (Proper.mul (proper_rz _) (proper_rx _)) (proper_rz _)

theorem ecliptic_itself (c : Verif.Earth.Ctx) (e : Euler) (jd : ℝ) :
    rotation c e jd (.sky .eclipticJ2000) (.sky .eclipticJ2000) = some 1 := by
  have p : Verif.Earth.plan 8 .eclipticJ2000 .eclipticJ2000
      = some (.lit .identity) := rfl
  show Verif.Earth.rotation c jd _ _ = _
  unfold Verif.Earth.rotation
  rw [p]
  rfl

/-- From the Moon through the Sun to Mars, and straight through the barycentre. -/
example (jd : ℝ) : ∃ q q',
    journey exactCtx passiveRight plainTables plainEphemeris jd 1
        ⟨.moon, .sky .eclipticJ2000, ![1, 2, 3]⟩ [.center .heliocentric, .center (.planet .mars)]
      = some q
    ∧ journey exactCtx passiveRight plainTables plainEphemeris jd 1
        ⟨.moon, .sky .eclipticJ2000, ![1, 2, 3]⟩
        [.center .geocentric, .center .barycentric, .center (.planet .mars)] = some q'
    ∧ q = q' := by
  have ex : ∀ (a b : Center) (x : V3), (Hub a ∨ Hub b) →
      ∃ y, toCenter exactCtx passiveRight plainTables plainEphemeris jd 1
        (.sky .eclipticJ2000) a b x = some y := by
    intro a b x hh
    have := (shift_exists exactCtx passiveRight plainTables plainEphemeris jd
      (.sky .eclipticJ2000) a b).mpr (Or.inr ⟨hh, by rw [ecliptic_itself]; rfl⟩)
    obtain ⟨s, hs⟩ := Option.isSome_iff_exists.mp this
    exact ⟨_, by unfold toCenter; rw [hs]; rfl⟩
  obtain ⟨y1, h1⟩ := ex .moon .heliocentric ![1, 2, 3] (Or.inr (Or.inr (Or.inl rfl)))
  obtain ⟨y2, h2⟩ := ex .heliocentric (.planet .mars) y1 (Or.inl (Or.inr (Or.inl rfl)))
  obtain ⟨z1, g1⟩ := ex .moon .geocentric ![1, 2, 3] (Or.inr (Or.inr (Or.inr rfl)))
  obtain ⟨z2, g2⟩ := ex .geocentric .barycentric z1 (Or.inr (Or.inl rfl))
  obtain ⟨z3, g3⟩ := ex .barycentric (.planet .mars) z2 (Or.inl (Or.inl rfl))
  have k1 : journey exactCtx passiveRight plainTables plainEphemeris jd 1
      ⟨.moon, .sky .eclipticJ2000, ![1, 2, 3]⟩ [.center .heliocentric, .center (.planet .mars)]
      = some ⟨.planet .mars, .sky .eclipticJ2000, y2⟩ := by
    simp [journey, perform, h1, h2]
  have k2 : journey exactCtx passiveRight plainTables plainEphemeris jd 1
      ⟨.moon, .sky .eclipticJ2000, ![1, 2, 3]⟩
      [.center .geocentric, .center .barycentric, .center (.planet .mars)]
      = some ⟨.planet .mars, .sky .eclipticJ2000, z3⟩ := by
    simp [journey, perform, g1, g2, g3]
  exact ⟨_, _, k1, k2, journeys_agree (exact_sound jd) passiveRight_proper ⟨rfl, rfl⟩ _ _ k1 k2
    rfl rfl⟩

/-- Mars and Jupiter are not offered directly. -/
example (jd : ℝ) (f : Frame) : shift exactCtx passiveRight plainTables plainEphemeris jd f
    (.planet .mars) (.planet .jupiter) = none := by
  have := (shift_exists exactCtx passiveRight plainTables plainEphemeris jd f
    (.planet .mars) (.planet .jupiter)).not.mpr (by simp [Hub])
  simpa using this

/-- The places of the plain tables. -/
example (jd : ℝ) : Located plainTables plainEphemeris jd
    (direct plainTables plainEphemeris jd) :=
  direct_located (by norm_num [plainTables])

/-- Two chains through Jupiter's frame. -/
example (jd : ℝ) : ∃ m n,
    Chain (rotation exactCtx passiveRight jd) (fun _ _ => True) (.sky .icrs) (.sky .icrs) m
    ∧ Chain (rotation exactCtx passiveRight jd) (fun _ _ => True) (.sky .icrs) (.sky .icrs) n
    ∧ n = bodyFixedToIcrs passiveRight (rotationParams .jupiter) jd
      * ((bodyFixedToIcrs passiveRight (rotationParams .jupiter) jd)ᵀ * 1) ∧ m = n := by
  have c1 : Chain (rotation exactCtx passiveRight jd) (fun _ _ => True) (.sky .icrs) (.sky .icrs) 1 :=
    .refl _
  have c2 := Chain.step (Chain.step (Chain.refl (R := rotation exactCtx passiveRight jd)
    (ok := fun _ _ => True) (.sky .icrs)) (d := .fixed .jupiter) rfl trivial)
    (d := .sky .icrs) rfl trivial
  exact ⟨_, _, c1, c2, rfl, (body_frames_consistent (exact_sound jd) passiveRight_proper
    ⟨rfl, rfl⟩ c1 c2).1⟩

end Verif.Centers
