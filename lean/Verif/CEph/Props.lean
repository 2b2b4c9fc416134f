import Verif.CEph.Model
import Verif.Runtime.Props

/-!
# C226: what a C client reads from an ephemeris file
-/

namespace Verif.CEph.Props
open Verif.Text Verif.Bits Verif.Daf Verif.Runtime
open Verif.Interp (ChebContract)
open Verif.Interp.Time (jdTtToEt)
open Verif.Ffi (Status)
open Verif.Handles (Centre Length)

/-! ### What the file says -/

section spec
variable (data : Bytes) (sums : List Summary) (et : ℝ)

/-- The file has a segment of the pair (body, centre) at the epoch. -/
def Given (x : Int × Int) : Prop := ∃ d, Chosen data sums x.1 x.2 et d

/-- The file has a segment of the pair, at some epoch or other. -/
def Listed (x : Int × Int) : Prop := ∃ s ∈ sums, For x.1 x.2 s

/-- The pair from which the Earth is found, relative to the Earth-Moon barycentre. -/
def EarthPair (x : Int × Int) : Prop := (HasEarth sums ∧ x = (399, 3)) ∨ (¬ HasEarth sums ∧ x = (301, 3))

/-- The pairs that a query needs, in order. -/
def Needs : Query → List (Int × Int) → Prop
  | .sun, l => l = [(10, 0)]
  | .earth, l => ∃ x, EarthPair sums x ∧ l = [(3, 0), x]
  | .earthFromSun, l => ∃ x, EarthPair sums x ∧ l = [(3, 0), x, (10, 0)]
  | .moon, l => ∃ x, EarthPair sums x ∧ l = [(301, 3), x]

/-- Why a query is refused: `s` tells of the first needed pair without a segment at the epoch, whether the file has other
segments of it. -/
def Refused (l : List (Int × Int)) (s : Status) : Prop :=
  ∃ pre x post, l = pre ++ x :: post ∧ (∀ y ∈ pre, Given data sums et y) ∧ ¬ Given data sums et x ∧
    ((Listed sums x ∧ s = .outOfRange) ∨ (¬ Listed sums x ∧ s = .dataError))

/-- The place that the file gives (`r` is the mass of the Earth over that of the Moon), as written for the client. -/
def Says (r : ℝ) (au km : Vec →ₗ[ℝ] Vec) : Query → Pos → Prop
  | .sun, w => ∃ s, At data sums 10 0 et s ∧ w = ⟨au s, .eclipticMeanJ2000, .barycentric, .au⟩
  | .earth, w => ∃ b o, At data sums 3 0 et b ∧ EarthFrom sums (fun t c => At data sums t c et) r o ∧
      w = ⟨au (b + o), .eclipticMeanJ2000, .barycentric, .au⟩
  | .earthFromSun, w => ∃ b o s, At data sums 3 0 et b ∧ EarthFrom sums (fun t c => At data sums t c et) r o ∧
      At data sums 10 0 et s ∧ w = ⟨au (b + o - s), .eclipticMeanJ2000, .heliocentric, .au⟩
  | .moon, w => ∃ m o, At data sums 301 3 et m ∧ EarthFrom sums (fun t c => At data sums t c et) r o ∧
      w = ⟨km (m - o), .eclipticMeanJ2000, .geocentric, .km⟩

/-- The velocity of the Earth that the file gives. -/
def Rates (r : ℝ) (au : Vec →ₗ[ℝ] Vec) (w : Vel) : Prop :=
  ∃ b o, Moves data sums 3 0 et b ∧ EarthFrom sums (fun t c => Moves data sums t c et) r o ∧
    w = ⟨au (b + o), .eclipticMeanJ2000⟩

end spec

/-! ### Lemmas -/

theorem bind_ok' {ε α β : Type} (a : α) (f : α → Res ε β) : (Res.ok a).bind f = f a := rfl
theorem bind_err' {ε α β : Type} (x : ε) (f : α → Res ε β) : (Res.err x : Res ε α).bind f = .err x := rfl

section pairs
variable {ck : Bool} {data : Bytes} (hlen : data.length < 2 ^ 63) {sums : List Summary} {l : List IndexedSegment}
  (hl : indexLoop ck data sums = .ok l) {ev evD : List ℝ → ℝ → ℝ} (hc : ChebContract ev evD)
include hlen hl hc

theorem pair_step (t c : Int) (et : ℝ) :
    (Given data sums et (t, c) ∧ (∃ p, positionEt ev (forPair l t c) et = .ok p) ∧
      ∃ v, velocityEt ev evD (forPair l t c) et = .ok v) ∨
    (¬ Given data sums et (t, c) ∧ ∃ x, positionEt ev (forPair l t c) et = .err x ∧
      velocityEt ev evD (forPair l t c) et = .err x ∧
      ((Listed sums (t, c) ∧ errStatus x = .outOfRange) ∨ (¬ Listed sums (t, c) ∧ errStatus x = .dataError))) := by
  unfold positionEt velocityEt
  rcases select_cases hlen hl t c et with ⟨d, hd, hs⟩ | ⟨hn, hs⟩
  · rw [hs]
    obtain ⟨pre, s, post, _, _, h2, h3, _⟩ := id hd
    obtain ⟨p0, e, _⟩ := position_table hc h2 h3.2.1 h3.2.2
    obtain ⟨p1, e', _⟩ := velocity_table hc h2 h3.2.1 h3.2.2
    exact .inl ⟨⟨d, hd⟩, ⟨p0, e⟩, ⟨p1, e'⟩⟩
  · rw [hs]
    refine .inr ⟨hn, _, rfl, rfl, ?_⟩
    by_cases hL : ∃ s ∈ sums, For t c s
    · exact .inl ⟨hL, by rw [if_pos hL]; rfl⟩
    · exact .inr ⟨hL, by rw [if_neg hL]; rfl⟩

end pairs

/-- Every query has its list of needed pairs. -/
theorem needs_exists (sums : List Summary) (q : Query) : ∃ l, Needs sums q l := by
  have : ∃ x, EarthPair sums x := by
    by_cases h : HasEarth sums
    · exact ⟨_, .inl ⟨h, rfl⟩⟩
    · exact ⟨_, .inr ⟨h, rfl⟩⟩
  obtain ⟨x, hx⟩ := this
  cases q with
  | sun => exact ⟨_, rfl⟩
  | earth => exact ⟨_, x, hx, rfl⟩
  | earthFromSun => exact ⟨_, x, hx, rfl⟩
  | moon => exact ⟨_, x, hx, rfl⟩

section inner
variable {ck : Bool} {data : Bytes} (hlen : data.length < 2 ^ 63) {sums : List Summary} {e : Eph}
  (h : load ck data sums = .ok e) {ev evD : List ℝ → ℝ → ℝ} (hc : ChebContract ev evD) (au km : Vec →ₗ[ℝ] Vec) (jd : ℝ)
include hlen h hc

/-- A query answers if all it needs is given, and else fails as the first pair that is not. -/
theorem inner_cases (r : ℝ) (q : Query) {needs : List (Int × Int)} (hq : Needs sums q needs) :
    ((∀ x ∈ needs, Given data sums (jdTtToEt jd) x) ∧ ∃ v, inner ev r au km q e jd = .ok v) ∨
    ∃ x, inner ev r au km q e jd = .err x ∧ Refused data sums (jdTtToEt jd) needs (errStatus x) := by
  obtain ⟨l, hl, rfl⟩ := load_eq h
  have hne := pair_nonempty 399 3 sums l ((index_iff hlen).mp hl)
  have st := fun t c => pair_step hlen hl hc t c (jdTtToEt jd)
  have none1 : ∀ y ∈ ([] : List (Int × Int)), Given data sums (jdTtToEt jd) y := by simp
  cases q with
  | sun =>
    obtain rfl : needs = [(10, 0)] := hq
    simp only [inner, sunBarycentric, fromIndexed]
    rcases st 10 0 with ⟨g, ⟨p, hp⟩, _⟩ | ⟨g, x, hp, _, hx⟩
    · rw [hp]; exact .inl ⟨by simpa using g, _, rfl⟩
    · rw [hp]; exact .inr ⟨x, rfl, [], _, [], rfl, none1, g, hx⟩
  | earth =>
    obtain ⟨y, hy, rfl⟩ := hq
    simp only [inner, earthBarycentric, fromIndexed]
    rcases hy with ⟨hE, rfl⟩ | ⟨hE, rfl⟩
    · rw [if_pos (hne.mpr hE)]
      dsimp only
      rcases st 3 0 with ⟨g, ⟨p, hp⟩, _⟩ | ⟨g, x, hp, _, hx⟩
      · rcases st 399 3 with ⟨g', ⟨p', hp'⟩, _⟩ | ⟨g', x, hp', _, hx⟩
        · rw [hp, hp']; exact .inl ⟨by simpa using ⟨g, g'⟩, _, rfl⟩
        · rw [hp, hp']; exact .inr ⟨x, rfl, [(3, 0)], _, [], rfl, by simpa using g, g', hx⟩
      · rw [hp]; exact .inr ⟨x, rfl, [], _, _, rfl, none1, g, hx⟩
    · rw [if_neg (fun hh => hE (hne.mp hh))]
      dsimp only
      rcases st 3 0 with ⟨g, ⟨p, hp⟩, _⟩ | ⟨g, x, hp, _, hx⟩
      · rcases st 301 3 with ⟨g', ⟨p', hp'⟩, _⟩ | ⟨g', x, hp', _, hx⟩
        · rw [hp, hp']; exact .inl ⟨by simpa using ⟨g, g'⟩, _, rfl⟩
        · rw [hp, hp']; exact .inr ⟨x, rfl, [(3, 0)], _, [], rfl, by simpa using g, g', hx⟩
      · rw [hp]; exact .inr ⟨x, rfl, [], _, _, rfl, none1, g, hx⟩
  | earthFromSun =>
    obtain ⟨y, hy, rfl⟩ := hq
    simp only [inner, earthHeliocentric, fromIndexed]
    rcases hy with ⟨hE, rfl⟩ | ⟨hE, rfl⟩
    · rw [if_pos (hne.mpr hE)]
      dsimp only
      rcases st 3 0 with ⟨g, ⟨p, hp⟩, _⟩ | ⟨g, x, hp, _, hx⟩
      · rcases st 399 3 with ⟨g', ⟨p', hp'⟩, _⟩ | ⟨g', x, hp', _, hx⟩
        · rcases st 10 0 with ⟨g'', ⟨p'', hp''⟩, _⟩ | ⟨g'', x, hp'', _, hx⟩
          · rw [hp, hp', hp'']; exact .inl ⟨by simpa using ⟨g, g', g''⟩, _, rfl⟩
          · rw [hp, hp', hp'']
            exact .inr ⟨x, rfl, [(3, 0), (399, 3)], _, [], rfl, by simpa using ⟨g, g'⟩, g'', hx⟩
        · rw [hp, hp']; exact .inr ⟨x, rfl, [(3, 0)], _, _, rfl, by simpa using g, g', hx⟩
      · rw [hp]; exact .inr ⟨x, rfl, [], _, _, rfl, none1, g, hx⟩
    · rw [if_neg (fun hh => hE (hne.mp hh))]
      dsimp only
      rcases st 3 0 with ⟨g, ⟨p, hp⟩, _⟩ | ⟨g, x, hp, _, hx⟩
      · rcases st 301 3 with ⟨g', ⟨p', hp'⟩, _⟩ | ⟨g', x, hp', _, hx⟩
        · rcases st 10 0 with ⟨g'', ⟨p'', hp''⟩, _⟩ | ⟨g'', x, hp'', _, hx⟩
          · rw [hp, hp', hp'']; exact .inl ⟨by simpa using ⟨g, g', g''⟩, _, rfl⟩
          · rw [hp, hp', hp'']
            exact .inr ⟨x, rfl, [(3, 0), (301, 3)], _, [], rfl, by simpa using ⟨g, g'⟩, g'', hx⟩
        · rw [hp, hp']; exact .inr ⟨x, rfl, [(3, 0)], _, _, rfl, by simpa using g, g', hx⟩
      · rw [hp]; exact .inr ⟨x, rfl, [], _, _, rfl, none1, g, hx⟩
  | moon =>
    obtain ⟨y, hy, rfl⟩ := hq
    simp only [inner, moonGeocentric, fromIndexed]
    rcases hy with ⟨hE, rfl⟩ | ⟨hE, rfl⟩
    · rw [if_pos (hne.mpr hE)]
      dsimp only
      rcases st 301 3 with ⟨g, ⟨p, hp⟩, _⟩ | ⟨g, x, hp, _, hx⟩
      · rcases st 399 3 with ⟨g', ⟨p', hp'⟩, _⟩ | ⟨g', x, hp', _, hx⟩
        · rw [hp, hp']; exact .inl ⟨by simpa using ⟨g, g'⟩, _, rfl⟩
        · rw [hp, hp']; exact .inr ⟨x, rfl, [(301, 3)], _, [], rfl, by simpa using g, g', hx⟩
      · rw [hp]; exact .inr ⟨x, rfl, [], _, _, rfl, none1, g, hx⟩
    · rw [if_neg (fun hh => hE (hne.mp hh))]
      dsimp only
      rcases st 301 3 with ⟨g, ⟨p, hp⟩, _⟩ | ⟨g, x, hp, _, hx⟩
      · rw [hp]; exact .inl ⟨by simpa using g, _, rfl⟩
      · rw [hp]; exact .inr ⟨x, rfl, [], _, _, rfl, none1, g, hx⟩

theorem velocity_cases (r : ℝ) {needs : List (Int × Int)} (hq : Needs sums .earth needs) :
    ((∀ x ∈ needs, Given data sums (jdTtToEt jd) x) ∧ ∃ v, earthVelocity ev evD r au e jd = .ok v) ∨
    ∃ x, earthVelocity ev evD r au e jd = .err x ∧ Refused data sums (jdTtToEt jd) needs (errStatus x) := by
  obtain ⟨l, hl, rfl⟩ := load_eq h
  have hne := pair_nonempty 399 3 sums l ((index_iff hlen).mp hl)
  have st := fun t c => pair_step hlen hl hc t c (jdTtToEt jd)
  have none1 : ∀ y ∈ ([] : List (Int × Int)), Given data sums (jdTtToEt jd) y := by simp
  obtain ⟨y, hy, rfl⟩ := hq
  simp only [earthVelocity, fromIndexed]
  rcases hy with ⟨hE, rfl⟩ | ⟨hE, rfl⟩
  · rw [if_pos (hne.mpr hE)]
    dsimp only
    rcases st 3 0 with ⟨g, _, p, hp⟩ | ⟨g, x, _, hp, hx⟩
    · rcases st 399 3 with ⟨g', _, p', hp'⟩ | ⟨g', x, _, hp', hx⟩
      · rw [hp, hp']; exact .inl ⟨by simpa using ⟨g, g'⟩, _, rfl⟩
      · rw [hp, hp']; exact .inr ⟨x, rfl, [(3, 0)], _, [], rfl, by simpa using g, g', hx⟩
    · rw [hp]; exact .inr ⟨x, rfl, [], _, _, rfl, none1, g, hx⟩
  · rw [if_neg (fun hh => hE (hne.mp hh))]
    dsimp only
    rcases st 3 0 with ⟨g, _, p, hp⟩ | ⟨g, x, _, hp, hx⟩
    · rcases st 301 3 with ⟨g', _, p', hp'⟩ | ⟨g', x, _, hp', hx⟩
      · rw [hp, hp']; exact .inl ⟨by simpa using ⟨g, g'⟩, _, rfl⟩
      · rw [hp, hp']; exact .inr ⟨x, rfl, [(3, 0)], _, [], rfl, by simpa using g, g', hx⟩
    · rw [hp]; exact .inr ⟨x, rfl, [], _, _, rfl, none1, g, hx⟩

theorem inner_says {r : ℝ} (hr : 0 < r) (q : Query) (w : Pos) :
    (∃ v, inner ev r au km q e jd = .ok v ∧ w = record q v) ↔ Says data sums (jdTtToEt jd) r au km q w := by
  cases q with
  | sun =>
    simp only [inner, sun_answer hlen h hc au jd, record, Says]
    constructor
    · rintro ⟨v, ⟨p, hp, rfl⟩, rfl⟩; exact ⟨p, hp, rfl⟩
    · rintro ⟨p, hp, rfl⟩; exact ⟨_, ⟨p, hp, rfl⟩, rfl⟩
  | earth =>
    simp only [inner, earth_answer hlen h hc au jd, record, Says]
    constructor
    · rintro ⟨v, ⟨b, o, hb, ho, rfl⟩, rfl⟩; exact ⟨b, o, hb, ho, rfl⟩
    · rintro ⟨b, o, hb, ho, rfl⟩; exact ⟨_, ⟨b, o, hb, ho, rfl⟩, rfl⟩
  | earthFromSun =>
    simp only [inner, earth_from_sun_answer hlen h hc au jd, record, Says]
    constructor
    · rintro ⟨v, ⟨b, o, s, hb, ho, hs, rfl⟩, rfl⟩; exact ⟨b, o, s, hb, ho, hs, rfl⟩
    · rintro ⟨b, o, s, hb, ho, hs, rfl⟩; exact ⟨_, ⟨b, o, s, hb, ho, hs, rfl⟩, rfl⟩
  | moon =>
    simp only [inner, moon_answer hlen h hc km jd hr, record, Says]
    constructor
    · rintro ⟨v, ⟨b, o, hb, ho, rfl⟩, rfl⟩; exact ⟨b, o, hb, ho, rfl⟩
    · rintro ⟨b, o, hb, ho, rfl⟩; exact ⟨_, ⟨b, o, hb, ho, rfl⟩, rfl⟩

end inner

/-- A refusal excludes an answer: some needed pair is not given. -/
theorem refused_not_given {data : Bytes} {sums : List Summary} {et : ℝ} {l : List (Int × Int)} {s : Status}
    (h : Refused data sums et l s) : ¬ ∀ x ∈ l, Given data sums et x := by
  obtain ⟨pre, x, post, rfl, _, hx, _⟩ := h
  exact fun hall => hx (hall x (by simp))

/-- The reason of a refusal is unique. -/
theorem refused_unique {data : Bytes} {sums : List Summary} {et : ℝ} {l : List (Int × Int)} {s s' : Status}
    (h : Refused data sums et l s) (h' : Refused data sums et l s') : s = s' := by
  obtain ⟨pre, x, post, rfl, hp, hx, hs⟩ := h
  obtain ⟨pre', x', post', e, hp', hx', hs'⟩ := h'
  have hxx : x = x' := by
    rcases List.append_eq_append_iff.mp e with ⟨as, rfl, he⟩ | ⟨as, rfl, he⟩
    · cases as with
      | nil => exact (List.cons.inj (by simpa using he)).1
      | cons a as =>
        have ha : x = a := (List.cons.inj he).1
        exact absurd (hp' x (by simp [ha])) hx
    · cases as with
      | nil => exact ((List.cons.inj (by simpa using he)).1).symm
      | cons a as =>
        have ha : x' = a := (List.cons.inj he).1
        exact absurd (hp x' (by simp [ha])) hx'
  subst hxx
  rcases hs with ⟨a, rfl⟩ | ⟨a, rfl⟩ <;> rcases hs' with ⟨b, rfl⟩ | ⟨b, rfl⟩ <;> first | rfl | exact absurd a b | exact absurd b a

/-! ### C226 -/

section client
variable {ck : Bool} {data : Bytes} (hlen : data.length < 2 ^ 63) {sums : List Summary}

/-- Loading: with summaries that can be read, the call succeeds exactly if some segment is of a supported kind and every such
segment has the layout of its kind. The handle then is a new box that holds this file; every other box is as before. -/
theorem load_call {other : Bytes → Bool} {fuel : Nat} (hp : parseSpk ck other fuel data = some (.ok sums)) (A : Alloc)
    {ptr out : Addr} (h1 : ptr ≠ 0) (h2 : out ≠ 0) (h : Heap) (hlen : data.length < 2 ^ 63) :
    ∃ s h' p, loadBytes ck other fuel A ptr data out h = some (s, h', p) ∧
      (s = .ok ↔ (∃ x ∈ sums, Supported x) ∧ ∀ x ∈ sums, Supported x → ∃ d, TableOf data x d) ∧
      (s = .ok → p = some (A h) ∧ (∃ e, h' (A h) = some e ∧ load ck data sums = .ok e) ∧ ∀ a, a ≠ A h → h' a = h a) ∧
      (s ≠ .ok → (s = .dataError ∨ s = .internalPanic) ∧ h' = h ∧ p = none) := by
  unfold loadBytes
  rw [if_neg (by simp [h1, h2]), fromBytes_eq, hp]
  have hiff := load_iff (ck := ck) hlen sums
  show ∃ s h' p, Option.map _ (some (load ck data sums)) = _ ∧ _
  cases hL : load ck data sums with
  | ok e =>
    exact ⟨_, _, _, rfl, by simpa using hiff.mp ⟨e, hL⟩,
      fun _ => ⟨rfl, ⟨e, by simp, rfl⟩, fun a ha => by simp [ha]⟩, fun hh => absurd rfl hh⟩
  | err x =>
    refine ⟨_, _, _, rfl, ⟨fun hh => (by cases hh), fun hh => ?_⟩, fun hh => (by cases hh), fun _ => ⟨.inl rfl, rfl, rfl⟩⟩
    obtain ⟨e, he⟩ := hiff.mpr hh
    rw [hL] at he; cases he
  | panic =>
    refine ⟨_, _, _, rfl, ⟨fun hh => (by cases hh), fun hh => ?_⟩, fun hh => (by cases hh), fun _ => ⟨.inr rfl, rfl, rfl⟩⟩
    obtain ⟨e, he⟩ := hiff.mpr hh
    rw [hL] at he; cases he

/-- A file whose summaries cannot be read is reported as a data error, and nothing is written. -/
theorem load_unreadable {other : Bytes → Bool} {fuel : Nat} {x : Daf.Err}
    (hp : parseSpk ck other fuel data = some (.err x)) (A : Alloc) {ptr out : Addr} (h1 : ptr ≠ 0) (h2 : out ≠ 0)
    (h : Heap) : loadBytes ck other fuel A ptr data out h = some (.dataError, h, none) := by
  unfold loadBytes
  rw [if_neg (by simp [h1, h2]), fromBytes_eq, hp]
  rfl

section queries
variable {e : Eph} (hL : load ck data sums = .ok e) {ev evD : List ℝ → ℝ → ℝ} (hc : ChebContract ev evD)
  (au km : Vec →ₗ[ℝ] Vec) {r : ℝ} (hr : 0 < r) {p out : Addr} (hp : p ≠ 0) (ho : out ≠ 0) {h : Heap} (hh : h p = some e)
include hlen hL hc hp ho hh

include hr in
/-- A position query returns the place that the file gives and the right labels, or, writing nothing, the reason why the file
does not give it. -/
theorem position_call (q : Query) (jd : ℝ) {needs : List (Int × Int)} (hq : Needs sums q needs) :
    ∃ s w, position ev r au km q p (some jd) out h = some (s, w) ∧
      ((s = .ok ∧ (∀ x ∈ needs, Given data sums (jdTtToEt jd) x) ∧
          ∃ v, w = some v ∧ Says data sums (jdTtToEt jd) r au km q v) ∨
       (w = none ∧ Refused data sums (jdTtToEt jd) needs s)) := by
  unfold position
  rw [if_neg (by simp [hp, ho]), hh]
  rcases inner_cases hlen hL hc au km jd r q hq with ⟨hg, v, hv⟩ | ⟨x, hx, hf⟩
  · refine ⟨.ok, some (record q v), by simp [hv], .inl ⟨rfl, hg, _, rfl, ?_⟩⟩
    exact (inner_says hlen hL hc au km jd hr q _).mp ⟨v, hv, rfl⟩
  · exact ⟨errStatus x, none, by simp [hx], .inr ⟨rfl, hf⟩⟩

include hr in
/-- The answer that the file gives is the one and only answer. -/
theorem position_iff (q : Query) (jd : ℝ) (w : Pos) :
    position ev r au km q p (some jd) out h = some (.ok, some w) ↔ Says data sums (jdTtToEt jd) r au km q w := by
  rw [← inner_says hlen hL hc au km jd hr q w]
  unfold position
  rw [if_neg (by simp [hp, ho]), hh]
  cases hi : inner ev r au km q e jd with
  | ok v => simp [hi, eq_comm]
  | err x => simp [hi]
  | panic => simp [hi]

include hr in
/-- The status is that of the first needed pair that the file lacks at the date. -/
theorem position_refused (q : Query) (jd : ℝ) {needs : List (Int × Int)} (hq : Needs sums q needs) (s : Status) :
    position ev r au km q p (some jd) out h = some (s, none) ↔ Refused data sums (jdTtToEt jd) needs s := by
  obtain ⟨s', w, e', hcase⟩ := position_call hlen hL hc au km hr hp ho hh q jd hq
  rw [e']
  rcases hcase with ⟨rfl, hg, v, rfl, _⟩ | ⟨rfl, hf⟩
  · simp only [Option.some.injEq, Prod.mk.injEq, reduceCtorEq, and_false, false_iff]
    exact fun hf => refused_not_given hf hg
  · constructor
    · intro hh'
      simp only [Option.some.injEq, Prod.mk.injEq, and_true] at hh'
      exact hh' ▸ hf
    · intro hf'
      rw [refused_unique hf hf']

/-- The velocity query: as the position of the Earth. -/
theorem velocity_call (jd : ℝ) {needs : List (Int × Int)} (hq : Needs sums .earth needs) :
    ∃ s w, velocity ev evD r au p (some jd) out h = some (s, w) ∧
      ((s = .ok ∧ (∀ x ∈ needs, Given data sums (jdTtToEt jd) x) ∧
          ∃ v, w = some v ∧ ∀ v', Rates data sums (jdTtToEt jd) r au v' ↔ v' = v) ∨
       (w = none ∧ Refused data sums (jdTtToEt jd) needs s)) := by
  unfold velocity
  rw [if_neg (by simp [hp, ho]), hh]
  rcases velocity_cases hlen hL hc au jd r hq with ⟨hg, v, hv⟩ | ⟨x, hx, hf⟩
  · refine ⟨.ok, some ⟨v, .eclipticMeanJ2000⟩, by simp [hv], .inl ⟨rfl, hg, _, rfl, fun v' => ?_⟩⟩
    constructor
    · rintro ⟨b, o, hb, ho', rfl⟩
      have := (earth_velocity_answer hlen hL hc au jd r _).mpr ⟨b, o, hb, ho', rfl⟩
      rw [hv] at this
      rw [Res.ok.inj this]
    · rintro rfl
      obtain ⟨b, o, hb, ho', rfl⟩ := (earth_velocity_answer hlen hL hc au jd r v).mp hv
      exact ⟨b, o, hb, ho', rfl⟩
  · exact ⟨errStatus x, none, by simp [hx], .inr ⟨rfl, hf⟩⟩

end queries

/-- From the file to the answer: whatever the bytes, a client that loads them and then asks for a place at a finite date
reads the place that the file gives, or the reason why it gives none. -/
theorem file_to_answer {other : Bytes → Bool} {fuel : Nat} (hp : parseSpk ck other fuel data = some (.ok sums))
    {A : Alloc} (hA : ∀ h, A h ≠ 0) {ptr out : Addr} {h h' : Heap} {a : Option Addr} (hlen : data.length < 2 ^ 63)
    (hload : loadBytes ck other fuel A ptr data out h = some (.ok, h', a)) {ev evD : List ℝ → ℝ → ℝ}
    (hc : ChebContract ev evD) (au km : Vec →ₗ[ℝ] Vec) {r : ℝ} (hr : 0 < r) {out' : Addr} (ho : out' ≠ 0) (q : Query)
    (jd : ℝ) {needs : List (Int × Int)} (hq : Needs sums q needs) :
    ∃ p, a = some p ∧
      (∀ w, position ev r au km q p (some jd) out' h' = some (.ok, some w) ↔
        Says data sums (jdTtToEt jd) r au km q w) ∧
      ∀ s, position ev r au km q p (some jd) out' h' = some (s, none) ↔ Refused data sums (jdTtToEt jd) needs s := by
  have h12 : ptr ≠ 0 ∧ out ≠ 0 := by
    unfold loadBytes at hload
    split at hload
    · simp at hload
    · rename_i hn
      exact not_or.mp hn
  obtain ⟨s, h2, p, heq, _, hok, _⟩ := load_call hp A h12.1 h12.2 h hlen
  rw [hload] at heq
  simp only [Option.some.injEq, Prod.mk.injEq] at heq
  obtain ⟨rfl, rfl, rfl⟩ := heq
  obtain ⟨rfl, ⟨e, he, hL⟩, _⟩ := hok rfl
  exact ⟨_, rfl, position_iff hlen hL hc au km hr (hA h) ho he q jd,
    position_refused hlen hL hc au km hr (hA h) ho he q jd hq⟩

end client

/-- Null pointers are reported and nothing is written; a date that is not finite is an invalid argument. -/
theorem guards (ck : Bool) (other : Bytes → Bool) (fuel : Nat) (A : Alloc) (ptr : Addr) (data : Bytes) (out : Addr)
    (h : Heap) (ev evD : List ℝ → ℝ → ℝ) (r : ℝ) (au km : Vec →ₗ[ℝ] Vec) (q : Query) (p : Addr) (jd : Option ℝ) :
    (ptr = 0 ∨ out = 0 → loadBytes ck other fuel A ptr data out h = some (.nullPointer, h, none)) ∧
    (p = 0 ∨ out = 0 → position ev r au km q p jd out h = some (.nullPointer, none) ∧
      velocity ev evD r au p jd out h = some (.nullPointer, none)) ∧
    (p ≠ 0 → out ≠ 0 → ∀ e, h p = some e → position ev r au km q p none out h = some (.invalidArgument, none) ∧
      velocity ev evD r au p none out h = some (.invalidArgument, none)) := by
  refine ⟨fun hn => ?_, fun hn => ⟨?_, ?_⟩, fun h1 h2 e he => ⟨?_, ?_⟩⟩
  · unfold loadBytes; rw [if_pos hn]
  · unfold position; rw [if_pos hn]
  · unfold velocity; rw [if_pos hn]
  · unfold position; rw [if_neg (by simp [h1, h2]), he]; rfl
  · unfold velocity; rw [if_neg (by simp [h1, h2]), he]; rfl

/-- Releasing a handle takes away that box and no other; the null pointer is ignored. -/
theorem free_exact (p : Addr) (h : Heap) :
    (p = 0 → free p h = some h) ∧
    (p ≠ 0 → ∀ e, h p = some e → ∃ h', free p h = some h' ∧ h' p = none ∧ ∀ a, a ≠ p → h' a = h a) := by
  refine ⟨fun hn => by unfold free; rw [if_pos hn], fun hn e he => ?_⟩
  unfold free
  rw [if_neg hn, he]
  exact ⟨_, rfl, by simp, fun a ha => by simp [ha]⟩

/-! ### A file that meets the hypotheses -/

/-- The kernel of Sun, barycentre and Moon of `Runtime.small`, boxed at address 1. -/
example : ∃ e, load false Bsp.nineWords small = .ok e ∧
    position sumSeries 81 LinearMap.id LinearMap.id .sun 1 (some 2451545) 2 (fun a => if a = 1 then some e else none) =
      some (.ok, some ⟨![100, 200, 300], .eclipticMeanJ2000, .barycentric, .au⟩) := by
  obtain ⟨e, he⟩ := small_loads
  refine ⟨e, he, ?_⟩
  have hb := Interp.Time.tt_to_et_offset 2451545
  rw [abs_le] at hb
  refine (position_iff (by decide) he series_contract LinearMap.id LinearMap.id (by norm_num) (by decide) (by decide)
    (by simp) .sun 2451545 _).mpr ⟨![100, 200, 300], ⟨theTable, ?_, ?_⟩, rfl⟩
  · refine ⟨[around 301 3], around 10 0, [around 3 0], rfl, ⟨by decide, rfl, rfl⟩, theTable_read _ _,
      small_contains _ _ ?_ ?_, ?_⟩
    · norm_num at hb; linarith [hb.1]
    · norm_num at hb; linarith [hb.2]
    · intro s' hs' hf
      simp only [List.mem_cons, List.not_mem_nil, or_false] at hs'
      subst hs'
      exact absurd hf.2.1 (by decide)
  · exact theTable_position (by norm_num at hb; linarith [hb.1]) (by norm_num at hb; linarith [hb.2])

/-- The same kernel with the date a day later: it has the Sun, but not then. -/
example : ∃ e, load false Bsp.nineWords small = .ok e ∧
    position sumSeries 81 LinearMap.id LinearMap.id .sun 1 (some 2451546) 2 (fun a => if a = 1 then some e else none) =
      some (.outOfRange, none) := by
  obtain ⟨e, he⟩ := small_loads
  refine ⟨e, he, ?_⟩
  have hb := Interp.Time.tt_to_et_offset 2451546
  rw [abs_le] at hb
  norm_num at hb
  refine (position_refused (by decide) he series_contract LinearMap.id LinearMap.id (by norm_num) (by decide) (by decide)
    (by simp) .sun 2451546 (rfl : Needs small .sun _) .outOfRange).mpr
    ⟨[], _, [], rfl, by simp, ?_, .inl ⟨⟨around 10 0, by simp [small], by decide⟩, rfl⟩⟩
  rintro ⟨d, pre, s, post, hs, hf, _, hcon, _⟩
  have hm : s ∈ small := by rw [hs]; simp
  simp only [small, List.mem_cons, List.not_mem_nil, or_false] at hm
  rcases hm with rfl | rfl | rfl
  · exact absurd hf.2.1 (by decide)
  · rcases hcon.1.2 with ⟨q, hq, hle⟩ | hq
    · have : fVal 0x3FF0000000000000 = some q := hq
      rw [words_one.1] at this
      injection this with this
      subst this
      push_cast at hle
      linarith [hb.1]
    · exact absurd hq (by decide)
  · exact absurd hf.2.1 (by decide)

/-- A kernel of Mars alone has no Sun at all. -/
example : ∃ e, load false Bsp.nineWords [around 4 0] = .ok e ∧
    position sumSeries 81 LinearMap.id LinearMap.id .sun 1 (some 2451545) 2 (fun a => if a = 1 then some e else none) =
      some (.dataError, none) := by
  obtain ⟨e, he⟩ := (load_iff (ck := false) (data := Bsp.nineWords) (by decide) [around 4 0]).mpr
    ⟨⟨around 4 0, by simp, by decide⟩, fun s hs _ => by
      simp only [List.mem_cons, List.not_mem_nil, or_false] at hs; subst hs; exact ⟨_, theTable_read _ _⟩⟩
  refine ⟨e, he, ?_⟩
  have hno : ¬ Listed [around 4 0] (10, 0) := by
    rintro ⟨s, hs, hf⟩
    simp only [List.mem_cons, List.not_mem_nil, or_false] at hs
    subst hs
    exact absurd hf.2.1 (by decide)
  refine (position_refused (by decide) he series_contract LinearMap.id LinearMap.id (by norm_num) (by decide) (by decide)
    (by simp) .sun 2451545 (rfl : Needs _ .sun _) .dataError).mpr
    ⟨[], _, [], rfl, by simp, ?_, .inr ⟨hno, rfl⟩⟩
  rintro ⟨d, pre, s, post, hs, hf, _⟩
  exact hno ⟨s, by rw [hs]; simp, hf⟩

/-! ### A whole file -/

/-- A kernel of 2120 bytes: file record, one summary record with one summary (Sun, from -1 s to 1 s), nine words of data. -/
def wholeFile : Bytes :=
  [68, 65, 70, 47, 83, 80, 75, 32, 2, 0, 0, 0, 6, 0, 0, 0] ++ List.replicate 60 32 ++ [2, 0, 0, 0] ++
  List.replicate 944 0 ++
  (List.replicate 16 0 ++ [0, 0, 0, 0, 0, 0, 240, 63] ++
    [0, 0, 0, 0, 0, 0, 240, 191, 0, 0, 0, 0, 0, 0, 240, 63] ++
    [10, 0, 0, 0, 0, 0, 0, 0, 1, 0, 0, 0, 2, 0, 0, 0, 1, 1, 0, 0, 9, 1, 0, 0] ++ List.replicate 960 0) ++
  Bsp.nineWords

def wholeSums : List Summary := [⟨0xBFF0000000000000, 0x3FF0000000000000, 10, 0, 1, 2, 257, 265⟩]

theorem whole_parse : parseSpk false (fun _ => false) 3 wholeFile = some (.ok wholeSums) := by
  have : (match parseSpk false (fun _ => false) 3 wholeFile with
    | some (.ok l) => decide (l = wholeSums)
    | _ => false) = true := by decide +kernel
  split at this
  · rename_i l h; rw [h, of_decide_eq_true this]
  · cases this

theorem whole_table : TableOf wholeFile ⟨0xBFF0000000000000, 0x3FF0000000000000, 10, 0, 1, 2, 257, 265⟩ theTable := by
  refine (read_iff (ck := false) (by decide +kernel)).mp ?_
  have : (match readSegment false wholeFile ⟨0xBFF0000000000000, 0x3FF0000000000000, 10, 0, 1, 2, 257, 265⟩ with
    | .ok d => decide (d.dataType = 2 ∧ d.init = -1 ∧ d.intlen = 2 ∧ d.rsize = 5 ∧ d.ncoeff = 1 ∧ d.nRecords = 1 ∧
        d.records = theTable.records)
    | _ => false) = true := by decide +kernel
  revert this
  cases readSegment false wholeFile ⟨0xBFF0000000000000, 0x3FF0000000000000, 10, 0, 1, 2, 257, 265⟩ with
  | ok d =>
    intro h
    obtain ⟨a, b, c, d', e, f, g⟩ := of_decide_eq_true h
    cases d
    simp only at a b c d' e f g
    subst a b c d' e f g
    rfl
  | err e => intro h; cases h
  | panic => intro h; cases h

/-- The bytes are loaded into an empty heap, and the client reads the Sun at J2000. -/
example : ∃ h', loadBytes false (fun _ => false) 3 (fun _ => 7) 1 wholeFile 2 (fun _ => none) = some (.ok, h', some 7) ∧
    position sumSeries 81 LinearMap.id LinearMap.id .sun 7 (some 2451545) 2 h' =
      some (.ok, some ⟨![100, 200, 300], .eclipticMeanJ2000, .barycentric, .au⟩) := by
  have hlen : wholeFile.length < 2 ^ 63 := by decide +kernel
  obtain ⟨s, h', p, h1, h2, h3, _⟩ := load_call whole_parse (fun _ => 7) (ptr := 1) (out := 2) (by decide) (by decide)
    (fun _ => none) hlen
  have hs : s = .ok := h2.mpr ⟨⟨_, List.mem_cons_self, by decide⟩, fun x hx _ => by
    simp only [wholeSums, List.mem_cons, List.not_mem_nil, or_false] at hx
    subst hx; exact ⟨_, whole_table⟩⟩
  subst hs
  obtain ⟨rfl, _⟩ := h3 rfl
  refine ⟨h', h1, ?_⟩
  obtain ⟨p, hp, hyes, _⟩ := file_to_answer whole_parse (A := fun _ => 7) (by simp) hlen h1 series_contract LinearMap.id
    LinearMap.id (r := 81) (by norm_num) (out' := 2) (by decide) .sun 2451545 rfl
  simp only [Option.some.injEq] at hp
  subst hp
  have hb := Interp.Time.tt_to_et_offset 2451545
  rw [abs_le] at hb
  norm_num at hb
  refine (hyes _).mpr ⟨![100, 200, 300], ⟨theTable, ?_, ?_⟩, rfl⟩
  · exact ⟨[], _, [], rfl, ⟨by decide, rfl, rfl⟩, whole_table,
      small_contains 10 0 (by linarith [hb.1]) (by linarith [hb.2]), by simp⟩
  · exact theTable_position (by linarith [hb.1]) (by linarith [hb.2])

end Verif.CEph.Props
