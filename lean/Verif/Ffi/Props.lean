import Verif.Ffi.Model
import Mathlib.Tactic.Abel
import Mathlib.Tactic.Linarith
import Mathlib.Tactic.NormNum
import Mathlib.Tactic.Module

/-!
# Properties of the C interface (C56, C72, C73, C74)
-/

namespace Verif.Ffi.Props
open Verif.Ffi

/-! ## Enumerations -/

namespace Spec

/-- The published codes: `siderust-ffi/include/siderust_ffi.h` 15-490 (variant names in the
spelling of the Rust enum).  The asteroid class and orbit frame enums are not in the header;
their codes are the documented `types.rs` 154-180. -/
def header : List (List (String × Int)) := [
  [("ICRS", 1), ("EclipticMeanJ2000", 2), ("EquatorialMeanJ2000", 3),
   ("EquatorialMeanOfDate", 4), ("EquatorialTrueOfDate", 5), ("Horizontal", 6), ("ECEF", 7),
   ("Galactic", 8), ("GCRS", 9), ("EclipticOfDate", 10), ("EclipticTrueOfDate", 11),
   ("CIRS", 12), ("TIRS", 13), ("ITRF", 14), ("ICRF", 15)],
  [("Barycentric", 1), ("Heliocentric", 2), ("Geocentric", 3), ("Topocentric", 4),
   ("Bodycentric", 5)],
  [("Rising", 0), ("Setting", 1)],
  [("Max", 0), ("Min", 1)],
  [("MainBelt", 0), ("NearEarth", 1), ("Trojan", 2), ("Centaur", 3), ("TransNeptunian", 4),
   ("DwarfPlanet", 5)],
  [("Heliocentric", 0), ("Barycentric", 1)],
  [("AU", 0), ("Km", 1), ("LightYear", 2), ("Parsec", 3), ("Meter", 4)],
  [("Sun", 0), ("Moon", 1), ("Mercury", 2), ("Venus", 3), ("Mars", 4), ("Jupiter", 5),
   ("Saturn", 6), ("Uranus", 7), ("Neptune", 8)],
  [("Body", 0), ("Star", 1), ("Icrs", 2), ("GenericTarget", 3)],
  [("MuAlpha", 0), ("MuAlphaStar", 1)],
  [("Iau2000A", 0), ("Iau2000B", 1), ("Iau2006", 2), ("Iau2006A", 3)],
  [("SphericalDir", 0), ("SphericalPos", 1), ("CartesianPos", 2)],
  [("Day", 0), ("Civil", 1), ("Nautical", 2), ("Astronomical", 3), ("Dark", 4)]]

end Spec

theorem fromRaw_mem (t : List Row) (c : Int) (v : String) (h : fromRaw t c = some v) :
    ∃ r ∈ t, r.variant = v ∧ r.code = c := by
  induction t with
  | nil => simp [fromRaw] at h
  | cons r rest ih =>
    rw [fromRaw] at h
    by_cases e : c = r.code
    · rw [if_pos e] at h
      exact ⟨r, by simp, Option.some.inj h, e.symm⟩
    · rw [if_neg e] at h
      obtain ⟨q, hq, h1, h2⟩ := ih h
      exact ⟨q, by simp [hq], h1, h2⟩

theorem fromRaw_of_mem (t : List Row) (nd : (t.map Row.code).Nodup) (r : Row) (hr : r ∈ t) :
    fromRaw t r.code = some r.variant := by
  induction t with
  | nil => simp at hr
  | cons q rest ih =>
    rw [fromRaw]
    simp only [List.map_cons, List.nodup_cons] at nd
    rcases List.mem_cons.1 hr with e | e
    · subst e; rw [if_pos rfl]
    · rw [if_neg, ih nd.2 e]
      intro he
      exact nd.1 (he ▸ List.mem_map_of_mem e)

theorem codeOf_of_mem (t : List Row) (nd : (t.map Row.variant).Nodup) (r : Row) (hr : r ∈ t) :
    codeOf t r.variant = some r.code := by
  induction t with
  | nil => simp at hr
  | cons q rest ih =>
    rw [codeOf]
    simp only [List.map_cons, List.nodup_cons] at nd
    rcases List.mem_cons.1 hr with e | e
    · subst e; rw [if_pos rfl]
    · rw [if_neg, ih nd.2 e]
      intro he
      exact nd.1 (he ▸ List.mem_map_of_mem e)

theorem asStr_of_mem (t : List Row) (nd : (t.map Row.variant).Nodup) (r : Row) (hr : r ∈ t) :
    asStr t r.variant = r.names.head? := by
  induction t with
  | nil => simp at hr
  | cons q rest ih =>
    rw [asStr]
    simp only [List.map_cons, List.nodup_cons] at nd
    rcases List.mem_cons.1 hr with e | e
    · subst e; rw [if_pos rfl]
    · rw [if_neg, ih nd.2 e]
      intro he
      exact nd.1 (he ▸ List.mem_map_of_mem e)

theorem matchName_of_mem (t : List Row) (nd : (t.flatMap Row.names).Nodup) (r : Row) (hr : r ∈ t)
    (n : String) (hn : n ∈ r.names) : matchName t n = some r.variant := by
  induction t with
  | nil => simp at hr
  | cons q rest ih =>
    rw [matchName]
    rw [List.flatMap_cons, List.nodup_append] at nd
    rcases List.mem_cons.1 hr with e | e
    · subst e; rw [if_pos hn]
    · rw [if_neg, ih nd.2.1 e]
      intro he
      exact nd.2.2 n he n (List.mem_flatMap.2 ⟨r, e, hn⟩) rfl

theorem matchName_mem (t : List Row) (n v : String) (h : matchName t n = some v) :
    ∃ r ∈ t, r.variant = v ∧ n ∈ r.names := by
  induction t with
  | nil => simp [matchName] at h
  | cons r rest ih =>
    rw [matchName] at h
    by_cases e : n ∈ r.names
    · rw [if_pos e] at h
      exact ⟨r, by simp, Option.some.inj h, e⟩
    · rw [if_neg e] at h
      obtain ⟨q, hq, h1, h2⟩ := ih h
      exact ⟨q, by simp [hq], h1, h2⟩

/-- Every table is usable: distinct codes, distinct variants, distinct names across the table,
all names already lower case. -/
theorem tables_sound : ∀ t ∈ tables, (t.map Row.code).Nodup ∧ (t.map Row.variant).Nodup ∧
    (t.flatMap Row.names).Nodup ∧ ∀ r ∈ t, ∀ n ∈ r.names, asciiLower n = n := by
  decide +kernel

/-- **C56.** Every enumeration of the interface carries exactly the published codes. -/
theorem codes_published : tables.map (fun t => t.map fun r => (r.variant, r.code)) =
    Spec.header := by
  decide +kernel

/-- **C56.** For every enumeration and every raw code: decoding succeeds exactly when the code is
one of the published codes of that enumeration, and then gives the variant that has that code;
encoding it again gives the raw code back. -/
theorem decode_exact (t : List Row) (ht : t ∈ tables) (raw : Int) (v : String) :
    (fromRaw t raw = some v ↔ ∃ r ∈ t, r.variant = v ∧ r.code = raw) ∧
    (fromRaw t raw = some v ↔ codeOf t v = some raw) := by
  obtain ⟨nc, nv, -, -⟩ := tables_sound t ht
  have h1 : fromRaw t raw = some v ↔ ∃ r ∈ t, r.variant = v ∧ r.code = raw := by
    refine ⟨fromRaw_mem t raw v, ?_⟩
    rintro ⟨r, hr, rfl, rfl⟩
    exact fromRaw_of_mem t nc r hr
  refine ⟨h1, h1.trans ⟨?_, ?_⟩⟩
  · rintro ⟨r, hr, rfl, rfl⟩
    exact codeOf_of_mem t nv r hr
  · intro h
    clear h1 nc
    induction t with
    | nil => simp [codeOf] at h
    | cons q rest ih =>
      rw [codeOf] at h
      by_cases e : v = q.variant
      · rw [if_pos e] at h
        exact ⟨q, by simp, e.symm, Option.some.inj h⟩
      · rw [if_neg e] at h
        have : ∀ (l : List Row), codeOf l v = some raw → ∃ r ∈ l, r.variant = v ∧ r.code = raw := by
          intro l
          induction l with
          | nil => simp [codeOf]
          | cons a l ihl =>
            intro hl
            rw [codeOf] at hl
            by_cases ea : v = a.variant
            · rw [if_pos ea] at hl
              exact ⟨a, by simp, ea.symm, Option.some.inj hl⟩
            · rw [if_neg ea] at hl
              obtain ⟨r, hr, hh⟩ := ihl hl
              exact ⟨r, by simp [hr], hh⟩
        obtain ⟨r, hr, hh⟩ := this rest h
        exact ⟨r, by simp [hr], hh⟩

example : fromRaw frameTable 6 = some "Horizontal" ∧ fromRaw frameTable 0 = none ∧
    fromRaw centerTable 9 = none := by decide +kernel

/-- **C56.** Two variants of one enumeration never share a code. -/
theorem decode_injective (t : List Row) (ht : t ∈ tables) (a b : Int) (v : String)
    (ha : fromRaw t a = some v) (hb : fromRaw t b = some v) : a = b := by
  have h1 := (decode_exact t ht a v).2.1 ha
  have h2 := (decode_exact t ht b v).2.1 hb
  rw [h1] at h2
  exact Option.some.inj h2

/-- `s` is `n` with some of its letters written in upper case. -/
def Spec.CaseVariant (s n : String) : Prop :=
  List.Forall₂ (fun a b : Char => a = b ∨
    (a.toNat, b.toNat) ∈ (List.range 26).map fun i => (65 + i, 97 + i)) s.toList n.toList

theorem lower_of_variant (s n : String) (hn : asciiLower n = n) (h : Spec.CaseVariant s n) :
    asciiLower s = n := by
  have key : ∀ x y : List Char, List.Forall₂ (fun a b : Char => a = b ∨
      (a.toNat, b.toNat) ∈ (List.range 26).map fun i => (65 + i, 97 + i)) x y →
      (y.map fun c => if 65 ≤ c.toNat ∧ c.toNat ≤ 90 then Char.ofNat (c.toNat + 32) else c) = y →
      (x.map fun c => if 65 ≤ c.toNat ∧ c.toNat ≤ 90 then Char.ofNat (c.toNat + 32) else c) = y := by
    intro x y hxy
    induction hxy with
    | nil => intro h; exact h
    | cons hab _ ih =>
      intro h
      simp only [List.map_cons, List.cons.injEq] at h ⊢
      refine ⟨?_, ih h.2⟩
      rcases hab with rfl | hab
      · exact h.1
      · obtain ⟨i, hi, he⟩ := List.mem_map.1 hab
        rw [List.mem_range] at hi
        have h1 := (Prod.mk.inj he).1
        have h2 := (Prod.mk.inj he).2
        rw [if_pos (by omega)]
        have h3 : (_ : Nat) + 32 = _ + 32 := congrArg (· + 32) h1.symm
        rw [h3, show 65 + i + 32 = 97 + i by omega, h2]
        exact Char.ofNat_toNat _
  have h1 : n.toList.map (fun c => if 65 ≤ c.toNat ∧ c.toNat ≤ 90 then Char.ofNat (c.toNat + 32)
      else c) = n.toList := by
    have := congrArg String.toList hn
    simpa [asciiLower] using this
  have := key _ _ h h1
  rw [asciiLower, this, String.ofList_toList]

/-- **C56.** The name of a variant, in any mixture of upper and lower case, is read back as that
variant. -/
theorem names_round_trip (t : List Row) (ht : t ∈ tables) (v : String) (s n : String)
    (hn : asStr t v = some n) (hs : Spec.CaseVariant s n) : parseName t s = some v := by
  obtain ⟨-, nv, nn, nl⟩ := tables_sound t ht
  have hv : ∃ r ∈ t, r.variant = v := by
    clear nv nn nl ht
    induction t with
    | nil => simp [asStr] at hn
    | cons q rest ih =>
      rw [asStr] at hn
      by_cases e : v = q.variant
      · exact ⟨q, by simp, e.symm⟩
      · rw [if_neg e] at hn
        obtain ⟨r, hr, h⟩ := ih hn
        exact ⟨r, by simp [hr], h⟩
  obtain ⟨r, hr, rfl⟩ := hv
  rw [asStr_of_mem t nv r hr] at hn
  rw [parseName, lower_of_variant s n (nl r hr n (List.mem_of_mem_head? hn)) hs]
  exact matchName_of_mem t nn r hr n (List.mem_of_mem_head? hn)

example : parseName frameTable "AltAz" = some "Horizontal" ∧
    parseName frameTable "ECLIPTIC_mean_J2000" = some "EclipticMeanJ2000" ∧
    parseName centerTable "moon" = none := by decide +kernel

/-- **C56.** A name is accepted only if its lower-case form is one of the listed names. -/
theorem names_sound (t : List Row) (s v : String) (h : parseName t s = some v) :
    ∃ r ∈ t, r.variant = v ∧ asciiLower s ∈ r.names :=
  matchName_mem t _ v h

/-- **C56.** The status codes are distinct and only `ok` is zero. -/
theorem status_codes : (∀ a b : Status, a.code = b.code → a = b) ∧
    (∀ a : Status, a.code = 0 ↔ a = .ok) := by
  refine ⟨?_, ?_⟩
  · intro a b; cases a <;> cases b <;> simp [Status.code]
  · intro a; cases a <;> simp [Status.code]

/-- **C56, violated part.** The codes decoded by hand accept everything: any code outside the
documented ones silently selects the default (heliocentric orbit, WGS-72 constants, prograde
transfer) instead of being rejected. -/
theorem unknown_codes_accepted :
    (∀ n, 2 < n → refCenterFromCode n = .heliocentric) ∧
    (∀ c : Int, c ≠ 0 → c ≠ 1 → c ≠ 2 → gravityFromCode c = .wgs72) ∧
    (∀ c : Int, c ≠ 0 → c ≠ 1 → retrogradeFromCode c = false) := by
  refine ⟨?_, ?_, ?_⟩
  · intro n h
    match n, h with
    | n + 3, _ => rfl
  · intro c _ h1 h2
    simp [gravityFromCode, h1, h2]
  · intro c _ h1
    simp [retrogradeFromCode, h1]

example : refCenterFromCode 7 = .heliocentric ∧ gravityFromCode 84 = .wgs72 := ⟨rfl, by decide⟩

/-- **C56.** The codes decoded by hand still round-trip. -/
theorem hand_codes_round_trip :
    (∀ c, refCenterFromCode (refCenterCode c) = c) ∧
    (∀ g, gravityFromCode (gravityCode g) = g) := by
  refine ⟨?_, ?_⟩
  · intro c; cases c <;> rfl
  · intro g; cases g <;> decide

/-- **C56, violated part.** Body-centric parameters survive the trip to C and back exactly when
their gravitational parameter is the built-in constant of their centre; any other value is
replaced. -/
theorem params_round_trip_iff {ω : Type} (gmSun gmEarth : Rat) (p : BodyParams ω) :
    paramsToRust gmSun gmEarth (paramsFromRust p) = p ↔
      p.mu = if p.center = .geocentric then gmEarth else gmSun := by
  obtain ⟨o, c, mu⟩ := p
  cases c <;> simp [paramsToRust, paramsFromRust, refCenterCode, refCenterFromCode, eq_comm]

/-! ## Memory -/

/-- What is assumed of the allocator: a new block is not at the null address nor at the address
of a live block, and the dangling address of an empty slice is not null. -/
structure AllocOk (A : Alloc) : Prop where
  fresh_ne : ∀ l, A.fresh l ≠ 0
  fresh_new : ∀ l, A.fresh l ∉ l
  dangling_ne : A.dangling ≠ 0

/-- An allocator with these properties. -/
def bump : Alloc := ⟨fun l => l.foldr max 0 + 1, 8⟩

theorem le_foldr_max (l : List Nat) : ∀ x ∈ l, x ≤ l.foldr max 0 := by
  induction l with
  | nil => simp
  | cons a l ih =>
    intro x hx
    rw [List.foldr_cons]
    rcases List.mem_cons.1 hx with rfl | h
    · exact le_max_left _ _
    · exact (ih x h).trans (le_max_right _ _)

theorem bump_ok : AllocOk bump := by
  refine ⟨fun l => Nat.succ_ne_zero _, ?_, by decide⟩
  intro l h
  have := le_foldr_max l _ h
  exact absurd this (by simp [bump])

/-- **C56.** A panic inside a guarded call becomes the internal-panic status, and a call that
returns keeps its status. -/
theorem guard_total {α : Type} (m : Mem α) (s : Status) :
    guard (.panic m) = (.internalPanic, m) ∧ guard (.ret s m) = (s, m) := ⟨rfl, rfl⟩

/-- **C56.** With a null output pointer nothing is written and the null-pointer status is
returned, by the single-value helper and by the array helper. -/
theorem null_output {ρ α : Type} (A : Alloc) (items : List ρ) (conv : ρ → α) (v : α)
    (out count : Addr) (m : Mem α) :
    (out = 0 → writeOut out v m = (.nullPointer, m)) ∧
    (out = 0 ∨ count = 0 → vecToC A items conv out count m = (.nullPointer, m)) := by
  refine ⟨fun h => by simp [writeOut, h], fun h => by simp [vecToC, h]⟩

/-- **C56.** A non-null single output receives exactly the value and no other cell changes. -/
theorem write_out {α : Type} (v : α) (out : Addr) (m : Mem α) (h : out ≠ 0) :
    (writeOut out v m).1 = .ok ∧ (writeOut out v m).2.cells out = some (.record v) ∧
    (∀ q, q ≠ out → (writeOut out v m).2.cells q = m.cells q) ∧
    (writeOut out v m).2.heap = m.heap := by
  simp only [writeOut, if_neg h, Mem.store]
  refine ⟨by trivial, by simp, fun q hq => by simp [hq], by trivial⟩

theorem dropBlock_head {α : Type} (p : Addr) (v : List α) (h : List (Addr × List α)) :
    dropBlock p v.length ((p, v) :: h) = some h := by
  simp [dropBlock]

theorem dropBlock_absent {α : Type} (p n : Nat) (h : List (Addr × List α))
    (hp : p ∉ h.map Prod.fst) : dropBlock p n h = none := by
  induction h with
  | nil => rfl
  | cons b h ih =>
    simp only [List.map_cons, List.mem_cons, not_or] at hp
    rw [dropBlock, if_neg (fun e => hp.1 e.symm), ih hp.2]
    rfl

/-- **C56.** The array contract.  For every list of results and all memories, a call with two
distinct non-null output pointers succeeds; the cells then hold a non-null address and the number
of elements; a live block at that address holds the converted elements in order (nothing is
allocated when there are none); every other cell and every other live block is untouched;
releasing the array with that address and count is defined and restores the live blocks
exactly. -/
theorem array_contract {ρ α : Type} (A : Alloc) (hA : AllocOk A) (items : List ρ) (conv : ρ → α)
    (out count : Addr) (m : Mem α) (ho : out ≠ 0) (hc : count ≠ 0) (hoc : out ≠ count) :
    ∃ (p : Addr) (m' : Mem α), vecToC A items conv out count m = (.ok, m') ∧ p ≠ 0 ∧
      m'.cells out = some (.word p) ∧ m'.cells count = some (.word items.length) ∧
      (∀ q, q ≠ out → q ≠ count → m'.cells q = m.cells q) ∧
      (items ≠ [] → (p, items.map conv) ∈ m'.heap ∧ p ∉ m.heap.map Prod.fst) ∧
      (∀ b ∈ m.heap, b ∈ m'.heap) ∧
      ∃ m'', freeSlice p items.length m' = some m'' ∧ m''.heap = m.heap ∧ m''.cells = m'.cells := by
  by_cases he : items = []
  · subst he
    refine ⟨A.dangling, (m.store out (.word A.dangling)).store count (.word 0), ?_,
      hA.dangling_ne, ?_, ?_, ?_, ?_, ?_, ?_⟩
    · simp [vecToC, ho, hc, boxSlice]
    · simp [Mem.store, hoc]
    · simp [Mem.store]
    · intro q h1 h2; simp [Mem.store, h1, h2]
    · intro h; exact absurd rfl h
    · intro b hb; exact hb
    · exact ⟨(m.store out (.word A.dangling)).store count (.word 0),
        if_neg (by simp), rfl, rfl⟩
  · have hm : items.map conv ≠ [] := by simpa using he
    have hl : 0 < items.length := List.length_pos_iff.2 he
    let p := A.fresh (m.heap.map Prod.fst)
    refine ⟨p, (({ m with heap := (p, items.map conv) :: m.heap } : Mem α).store out
      (.word p)).store count (.word items.length), ?_, hA.fresh_ne _, ?_, ?_, ?_, ?_, ?_, ?_⟩
    · simp [vecToC, ho, hc, boxSlice, he, p]
    · simp [Mem.store, hoc]
    · simp [Mem.store]
    · intro q h1 h2; simp [Mem.store, h1, h2]
    · intro _; exact ⟨by simp [Mem.store], hA.fresh_new _⟩
    · intro b hb; simp [Mem.store, hb]
    · have := dropBlock_head p (items.map conv) m.heap
      rw [List.length_map] at this
      refine ⟨⟨((m.store out (.word p)).store count (.word items.length)).cells, m.heap⟩, ?_,
        rfl, rfl⟩
      rw [freeSlice, if_pos ⟨hA.fresh_ne _, hl⟩]
      show Option.map _ (dropBlock p items.length ((p, items.map conv) :: m.heap)) = _
      rw [this]
      rfl

example : vecToC bump [3, 4] (· + 1) 100 200 (⟨fun _ => none, []⟩ : Mem Nat) =
    (.ok, (⟨fun _ => none, [(1, [4, 5])]⟩ : Mem Nat).store 100 (.word 1) |>.store 200 (.word 2)) :=
  rfl

/-- **C56.** Exactly once: releasing a non-empty array a second time, or with another non-zero
count, is not a defined operation. -/
theorem free_once {ρ α : Type} (A : Alloc) (hA : AllocOk A) (items : List ρ) (conv : ρ → α)
    (out count : Addr) (m : Mem α) (ho : out ≠ 0) (hc : count ≠ 0) (hoc : out ≠ count)
    (hne : items ≠ []) :
    ∃ (p : Addr) (m' m'' : Mem α), vecToC A items conv out count m = (.ok, m') ∧
      m'.cells out = some (.word p) ∧ freeSlice p items.length m' = some m'' ∧
      (∀ n, 0 < n → freeSlice p n m'' = none) ∧
      (∀ n, 0 < n → n ≠ items.length → freeSlice p n m' = none) := by
  have hm : items.map conv ≠ [] := by simpa using hne
  have hl : 0 < items.length := List.length_pos_iff.2 hne
  let p := A.fresh (m.heap.map Prod.fst)
  have hp0 : p ≠ 0 := hA.fresh_ne _
  let m' := (({ m with heap := (p, items.map conv) :: m.heap } : Mem α).store out
      (.word p)).store count (.word items.length)
  refine ⟨p, m', { m' with heap := m.heap }, ?_, ?_, ?_, ?_, ?_⟩
  · simp [vecToC, ho, hc, boxSlice, hne, p, m']
  · simp [m', Mem.store, hoc]
  · have := dropBlock_head p (items.map conv) m.heap
    rw [List.length_map] at this
    rw [freeSlice, if_pos ⟨hp0, hl⟩]
    show Option.map _ (dropBlock p items.length ((p, items.map conv) :: m.heap)) = _
    rw [this]; rfl
  · intro n hn
    rw [freeSlice, if_pos ⟨hp0, hn⟩]
    show Option.map _ (dropBlock p n m.heap) = _
    rw [dropBlock_absent _ _ _ (hA.fresh_new _)]; rfl
  · intro n hn hne'
    rw [freeSlice, if_pos ⟨hp0, hn⟩]
    show Option.map _ (dropBlock p n ((p, items.map conv) :: m.heap)) = _
    rw [dropBlock, if_pos rfl, if_neg (by simpa using fun e => hne' e.symm)]; rfl

/-! ### Whole histories -/

/-- What a client does: ask for an array (with the results the library computes), or release the
array of its `k`-th request. -/
inductive Op (α : Type)
  | ask (items : List α)
  | release (k : Nat)

/-- One client step on the library heap, the client remembering the address and count it read
back from each request. -/
def clientStep {α : Type} (A : Alloc) (st : Mem α × List (Nat × Nat)) : Op α →
    Option (Mem α × List (Nat × Nat))
  | .ask items =>
      match vecToC A items id 1 2 st.1 with
      | (_, m') => match m'.cells 1, m'.cells 2 with
        | some (.word p), some (.word n) => some (m', st.2 ++ [(p, n)])
        | _, _ => none
  | .release k => match st.2[k]? with
      | none => none
      | some (p, n) => (freeSlice p n st.1).map fun m' => (m', st.2)

/-- Run a client. -/
def clientRun {α : Type} (A : Alloc) (st : Mem α × List (Nat × Nat)) : List (Op α) →
    Option (Mem α × List (Nat × Nat))
  | [] => some st
  | o :: rest => match clientStep A st o with
      | none => none
      | some st' => clientRun A st' rest

/-- A client obeys the rules: every release names an earlier request, and no request is released
twice.  `n` requests made so far, `freed` already released. -/
def Obeys {α : Type} : Nat → List Nat → List (Op α) → Prop
  | _, _, [] => True
  | n, freed, .ask _ :: rest => Obeys (n + 1) freed rest
  | n, freed, .release k :: rest => k < n ∧ k ∉ freed ∧ Obeys n (k :: freed) rest

/-- The non-empty results asked for and not released, by request number. -/
def owed {α : Type} : Nat → List (Nat × List α) → List (Op α) → List (Nat × List α)
  | _, acc, [] => acc
  | n, acc, .ask items :: rest => owed (n + 1) (if items = [] then acc else (n, items) :: acc) rest
  | n, acc, .release k :: rest => owed n (acc.filter fun b => b.1 ≠ k) rest

/-- Invariant tying the library heap to the outstanding requests. -/
structure Inv {α : Type} (freed : List Nat) (acc : List (Nat × List α)) (m : Mem α)
    (rem : List (Nat × Nat)) : Prop where
  heap_eq : m.heap = acc.map fun b => (((rem[b.1]?).getD (0, 0)).1, b.2)
  nodup : (m.heap.map Prod.fst).Nodup
  keys : (acc.map Prod.fst).Nodup
  bound : ∀ b ∈ acc, ∃ p, rem[b.1]? = some (p, b.2.length) ∧ p ≠ 0 ∧ b.2 ≠ []
  rest : ∀ k, k < rem.length → k ∉ freed → (∃ b ∈ acc, b.1 = k) ∨ ∃ p, rem[k]? = some (p, 0)

theorem dropBlock_map {α : Type} (f : Nat → Addr) (k : Nat) (acc : List (Nat × List α))
    (v : List α) (hk : (acc.map Prod.fst).Nodup)
    (hn : ((acc.map fun b => (f b.1, b.2)).map Prod.fst).Nodup) (hb : (k, v) ∈ acc) :
    dropBlock (f k) v.length (acc.map fun b => (f b.1, b.2)) =
      some ((acc.filter fun b => b.1 ≠ k).map fun b => (f b.1, b.2)) := by
  induction acc with
  | nil => simp at hb
  | cons a acc ih =>
    simp only [List.map_cons, List.nodup_cons] at hk hn
    rcases List.mem_cons.1 hb with e | e
    · subst e
      have hf : (acc.filter fun b => b.1 ≠ k) = acc := by
        rw [List.filter_eq_self]
        intro b hb'
        simp only [ne_eq, decide_not, Bool.not_eq_eq_eq_not, Bool.not_true, decide_eq_false_iff_not]
        intro he
        exact hk.1 (List.mem_map.2 ⟨b, hb', he⟩)
      rw [List.filter_cons_of_neg (by simp), hf]
      simp [dropBlock]
    · have hak : a.1 ≠ k := fun he => hk.1 (List.mem_map.2 ⟨_, e, he.symm⟩)
      have hfk : f a.1 ≠ f k := by
        intro he
        apply hn.1
        rw [List.mem_map]
        exact ⟨(f k, v), List.mem_map.2 ⟨(k, v), e, rfl⟩, he.symm⟩
      rw [List.map_cons, dropBlock, if_neg hfk, ih hk.2 hn.2 e,
        List.filter_cons_of_pos (by simpa using hak)]
      rfl

theorem client_step {α : Type} (A : Alloc) (hA : AllocOk A) :
    ∀ (ops : List (Op α)) (n : Nat) (freed : List Nat) (acc : List (Nat × List α)) (m : Mem α)
      (rem : List (Nat × Nat)), rem.length = n → Inv freed acc m rem → Obeys n freed ops →
      ∃ m' rem' freed', clientRun A (m, rem) ops = some (m', rem') ∧
        Inv freed' (owed n acc ops) m' rem' := by
  intro ops
  induction ops with
  | nil => intro n freed acc m rem _ hI _; exact ⟨m, rem, freed, rfl, hI⟩
  | cons o ops ih =>
    intro n freed acc m rem hlen hI hO
    cases o with
    | ask items =>
      obtain ⟨p, m', hv, hp, h1, h2, -, hheap, -, -⟩ :=
        array_contract A hA items id 1 2 m (by decide) (by decide) (by decide)
      have hstep : clientStep A (m, rem) (.ask items) = some (m', rem ++ [(p, items.length)]) := by
        simp only [clientStep, hv, h1, h2]
      have hm' : m'.heap = if items = [] then m.heap else (p, items) :: m.heap := by
        have : vecToC A items id 1 2 m = (.ok, m') := hv
        by_cases he : items = []
        · subst he
          simp only [vecToC, boxSlice] at this
          simp at this
          rw [← this]; simp [Mem.store]
        · simp [vecToC, boxSlice, he] at this
          have hc := this ▸ h1
          simp [Mem.store] at hc
          rw [← this, if_neg he]
          simp [Mem.store, hc]
      have hget : ∀ k, k < n → (rem ++ [(p, items.length)])[k]? = rem[k]? := by
        intro k hk
        rw [List.getElem?_append_left (by omega)]
      have hgetn : (rem ++ [(p, items.length)])[n]? = some (p, items.length) := by
        rw [List.getElem?_append_right (by omega)]
        simp [hlen]
      have hlt : ∀ b ∈ acc, b.1 < n := by
        intro b hb
        obtain ⟨q, hq, -⟩ := hI.bound b hb
        have := (List.getElem?_eq_some_iff.1 hq).1
        omega
      have hmapacc : (acc.map fun b => ((((rem ++ [(p, items.length)])[b.1]?).getD (0, 0)).1, b.2)) =
          acc.map fun b => (((rem[b.1]?).getD (0, 0)).1, b.2) := by
        apply List.map_congr_left
        intro b hb
        rw [hget _ (hlt b hb)]
      have hI' : Inv freed (if items = [] then acc else (n, items) :: acc) m'
          (rem ++ [(p, items.length)]) := by
        by_cases he : items = []
        · rw [if_pos he]
          rw [if_pos he] at hm'
          refine ⟨by rw [hm', hmapacc]; exact hI.heap_eq, by rw [hm']; exact hI.nodup, hI.keys, ?_, ?_⟩
          · intro b hb
            rw [hget _ (hlt b hb)]
            exact hI.bound b hb
          · intro k hk hf
            rw [List.length_append, List.length_singleton, hlen] at hk
            by_cases hkn : k = n
            · right; subst hkn; exact ⟨p, by rw [hgetn, he]; rfl⟩
            · rw [hget k (by omega)]
              exact hI.rest k (by omega) hf
        · rw [if_neg he]
          rw [if_neg he] at hm'
          refine ⟨?_, ?_, ?_, ?_, ?_⟩
          · rw [hm', List.map_cons, hmapacc, hgetn, hI.heap_eq]; rfl
          · rw [hm', List.map_cons, List.nodup_cons]
            exact ⟨(hheap he).2, hI.nodup⟩
          · rw [List.map_cons, List.nodup_cons]
            refine ⟨?_, hI.keys⟩
            intro h
            obtain ⟨b, hb, hbn⟩ := List.mem_map.1 h
            have := hlt b hb
            omega
          · intro b hb
            rcases List.mem_cons.1 hb with rfl | hb
            · exact ⟨p, hgetn, hp, he⟩
            · rw [hget _ (hlt b hb)]
              exact hI.bound b hb
          · intro k hk hf
            rw [List.length_append, List.length_singleton, hlen] at hk
            by_cases hkn : k = n
            · left; exact ⟨(n, items), by simp, hkn.symm⟩
            · rw [hget k (by omega)]
              rcases hI.rest k (by omega) hf with ⟨b, hb, h⟩ | h
              · left; exact ⟨b, by simp [hb], h⟩
              · right; exact h
      obtain ⟨m2, r2, f2, hrun, hinv⟩ := ih (n + 1) freed _ m' _ (by simp [hlen]) hI' hO
      refine ⟨m2, r2, f2, ?_, hinv⟩
      rw [clientRun, hstep]
      exact hrun
    | release k =>
      obtain ⟨hk, hkf, hO'⟩ := hO
      have fin : ∀ m', freeSlice (((rem[k]?).getD (0, 0)).1) (((rem[k]?).getD (0, 0)).2) m = some m' →
          Inv (k :: freed) (acc.filter fun b => b.1 ≠ k) m' rem →
          ∃ m2 rem' freed', clientRun A (m, rem) (.release k :: ops) = some (m2, rem') ∧
            Inv freed' (owed n acc (.release k :: ops)) m2 rem' := by
        intro m' hfree hI'
        obtain ⟨m2, r2, f2, hrun, hinv⟩ := ih n (k :: freed) _ m' rem hlen hI' hO'
        refine ⟨m2, r2, f2, ?_, hinv⟩
        have hs : rem[k]? = some rem[k] := List.getElem?_eq_getElem (by omega)
        rw [hs] at hfree
        rw [clientRun, clientStep, hs]
        simp only [Option.getD_some] at hfree
        simp only [hfree, Option.map_some]
        exact hrun
      have restf : ∀ j, j < rem.length → j ∉ k :: freed →
          (∃ b ∈ acc.filter (fun b => b.1 ≠ k), b.1 = j) ∨ ∃ p, rem[j]? = some (p, 0) := by
        intro j hj hjf
        simp only [List.mem_cons, not_or] at hjf
        rcases hI.rest j hj hjf.2 with ⟨b, hb, h⟩ | h
        · left
          refine ⟨b, List.mem_filter.2 ⟨hb, ?_⟩, h⟩
          simp only [ne_eq, decide_not, Bool.not_eq_eq_eq_not, Bool.not_true,
            decide_eq_false_iff_not]
          rw [h]; exact hjf.1
        · right; exact h
      rcases hI.rest k (by omega) hkf with ⟨b, hb, hbk⟩ | ⟨p, hp⟩
      · obtain ⟨p, hp, hp0, hbne⟩ := hI.bound b hb
        have hd := dropBlock_map (fun j => ((rem[j]?).getD (0, 0)).1) b.1 acc b.2 hI.keys
          (by rw [← hI.heap_eq]; exact hI.nodup) hb
        rw [← hI.heap_eq] at hd
        subst hbk
        refine fin ⟨m.cells, (acc.filter (fun c => c.1 ≠ b.1)).map
          (fun c => (((rem[c.1]?).getD (0, 0)).1, c.2))⟩ ?_ ⟨rfl, ?_, ?_, ?_, restf⟩
        · simp only [hp, Option.getD_some] at hd ⊢
          rw [freeSlice, if_pos ⟨hp0, List.length_pos_iff.2 hbne⟩, hd]
          rfl
        · have hnd := hI.nodup
          rw [hI.heap_eq] at hnd
          exact hnd.sublist ((List.filter_sublist.map _).map _)
        · exact hI.keys.sublist (List.filter_sublist.map _)
        · intro c hc
          exact hI.bound c (List.mem_filter.1 hc).1
      · have hf : (acc.filter fun b => b.1 ≠ k) = acc := by
          rw [List.filter_eq_self]
          intro b hb
          simp only [ne_eq, decide_not, Bool.not_eq_eq_eq_not, Bool.not_true,
            decide_eq_false_iff_not]
          intro he
          obtain ⟨q, hq, -, hne⟩ := hI.bound b hb
          rw [he, hp] at hq
          have := (Prod.mk.inj (Option.some.inj hq)).2
          exact hne (List.length_eq_zero_iff.1 this.symm)
        refine fin m ?_ ?_
        · simp [hp, freeSlice]
        · rw [hf] at restf ⊢
          exact ⟨hI.heap_eq, hI.nodup, hI.keys, hI.bound, restf⟩

/-- **C56.** Any client that releases each returned array at most once, using the address and count
it was given, runs without undefined behaviour from an empty heap; at the end the library heap
holds exactly the contents of the non-empty arrays not yet released (so nothing leaks once all are
released). -/
theorem client_history {α : Type} (A : Alloc) (hA : AllocOk A) (ops : List (Op α))
    (cells : Addr → Option (Cell α)) (h : Obeys 0 [] ops) :
    ∃ m rem, clientRun A (⟨cells, []⟩, []) ops = some (m, rem) ∧
      m.heap.map Prod.snd = (owed 0 [] ops).map Prod.snd ∧ (m.heap.map Prod.fst).Nodup := by
  obtain ⟨m, rem, _, hr, hI⟩ := client_step A hA ops 0 [] [] ⟨cells, []⟩ [] rfl
    ⟨rfl, by simp, by simp, by simp, by simp⟩ h
  refine ⟨m, rem, hr, ?_, hI.nodup⟩
  rw [hI.heap_eq]
  simp [Function.comp_def]

example : Obeys 0 [] ([.ask [1, 2], .ask [], .ask [7], .release 0, .release 1] : List (Op Nat)) ∧
    owed 0 [] ([.ask [1, 2], .ask [], .ask [7], .release 0, .release 1] : List (Op Nat)) =
      [(2, [7])] := by
  refine ⟨by simp [Obeys], by decide⟩

/-! ### Ephemeris messages, handles and names -/

/-- **C56.** Reading an orbit message through C: a null pointer anywhere gives the null-pointer
status and writes nothing, an unreadable text gives the invalid-argument status and writes nothing,
and otherwise the caller gets the states, whose release with the same count is defined and restores
the heap. -/
theorem oem_contract {α : Type} (A : Alloc) (hA : AllocOk A) (text : Addr) (utf8 : Option String)
    (read : String → Option (List α)) (out count : Addr) (m : Mem α) :
    (text = 0 ∨ out = 0 ∨ count = 0 →
      oemParse A text utf8 read out count m = (.nullPointer, m)) ∧
    (text ≠ 0 → out ≠ 0 → count ≠ 0 → (utf8.bind read) = none →
      oemParse A text utf8 read out count m = (.invalidArgument, m)) ∧
    (text ≠ 0 → out ≠ 0 → count ≠ 0 → out ≠ count → ∀ states, utf8.bind read = some states →
      ∃ p m' m'', oemParse A text utf8 read out count m = (.ok, m') ∧
        m'.cells out = some (.word p) ∧ m'.cells count = some (.word states.length) ∧
        (states ≠ [] → (p, states) ∈ m'.heap) ∧ (p = 0 ↔ states = []) ∧
        oemFree p states.length m' = some m'' ∧ m''.heap = m.heap) := by
  refine ⟨?_, ?_, ?_⟩
  · intro h
    unfold oemParse
    by_cases ht : text = 0
    · rw [if_pos ht]; rfl
    · rw [if_neg ht, if_pos (h.resolve_left ht)]; rfl
  · intro ht ho hc hn
    unfold oemParse
    rw [if_neg ht, if_neg (by simp [ho, hc])]
    cases utf8 with
    | none => rfl
    | some s =>
      have : read s = none := hn
      simp only [this]; rfl
  · intro ht ho hc hoc states hs
    cases utf8 with
    | none => cases hs
    | some s =>
      have hs' : read s = some states := hs
      by_cases he : states = []
      · subst he
        refine ⟨0, (m.store out (.word 0)).store count (.word 0),
          (m.store out (.word 0)).store count (.word 0), ?_, ?_, ?_, ?_, ?_, ?_, rfl⟩
        · unfold oemParse
          rw [if_neg ht, if_neg (by simp [ho, hc])]
          simp only [hs']; rfl
        · simp [Mem.store, hoc]
        · simp [Mem.store]
        · intro h; exact absurd rfl h
        · simp
        · simp [oemFree]
      · let p := A.fresh (m.heap.map Prod.fst)
        have hp0 : p ≠ 0 := hA.fresh_ne _
        let m' := (({ m with heap := (p, states) :: m.heap } : Mem α).store out
          (.word p)).store count (.word states.length)
        refine ⟨p, m', { m' with heap := m.heap }, ?_, ?_, ?_, ?_, ?_, ?_, rfl⟩
        · unfold oemParse
          rw [if_neg ht, if_neg (by simp [ho, hc])]
          simp only [hs', if_neg he, boxSlice]; rfl
        · simp [m', Mem.store, hoc]
        · simp [m', Mem.store]
        · intro _; simp [m', Mem.store]
        · simp [hp0, he]
        · rw [oemFree, if_neg (by simp [hp0, he])]
          show Option.map _ (dropBlock p states.length ((p, states) :: m.heap)) = _
          rw [dropBlock_head]; rfl

/-- **C56.** Handles: a null output gives the null-pointer status, a failed construction gives its
status, a panicking one the internal-panic status — in all three cases nothing is written or
allocated; on success the cell holds a non-null handle whose release is defined once, restores the
heap, and is undefined a second time.  Releasing the null handle does nothing. -/
theorem handle_contract {α : Type} (A : Alloc) (hA : AllocOk A) (out : Addr)
    (build : Unit → Option (Except Status α)) (m : Mem α) :
    handleFree 0 m = some m ∧
    (out = 0 → handleCreate A out build m = (.nullPointer, m)) ∧
    (out ≠ 0 → build () = none → handleCreate A out build m = (.internalPanic, m)) ∧
    (out ≠ 0 → ∀ e, build () = some (.error e) → handleCreate A out build m = (e, m)) ∧
    (out ≠ 0 → ∀ v, build () = some (.ok v) → ∃ p m' m'',
      handleCreate A out build m = (.ok, m') ∧ p ≠ 0 ∧ m'.cells out = some (.word p) ∧
      (p, [v]) ∈ m'.heap ∧ (∀ q, q ≠ out → m'.cells q = m.cells q) ∧
      handleFree p m' = some m'' ∧ m''.heap = m.heap ∧ handleFree p m'' = none) := by
  refine ⟨by simp [handleFree], ?_, ?_, ?_, ?_⟩
  · intro h; simp [handleCreate, h, guard]
  · intro h hb; simp [handleCreate, h, hb, guard]
  · intro h e hb; simp [handleCreate, h, hb, guard]
  · intro h v hb
    let p := A.fresh (m.heap.map Prod.fst)
    have hp0 : p ≠ 0 := hA.fresh_ne _
    let m' := ({ m with heap := (p, [v]) :: m.heap } : Mem α).store out (.word p)
    refine ⟨p, m', { m' with heap := m.heap }, ?_, hp0, ?_, ?_, ?_, ?_, rfl, ?_⟩
    · simp [handleCreate, h, hb, guard, boxSlice, p, m']
    · simp [m', Mem.store]
    · simp [m', Mem.store]
    · intro q hq; simp [m', Mem.store, hq]
    · rw [handleFree, if_pos hp0]
      show Option.map _ (dropBlock p 1 ((p, [v]) :: m.heap)) = _
      have := dropBlock_head p [v] m.heap
      rw [List.length_singleton] at this
      rw [this]; rfl
    · rw [handleFree, if_pos hp0]
      show Option.map _ (dropBlock p 1 m.heap) = _
      rw [dropBlock_absent _ _ _ (hA.fresh_new _)]; rfl

/-- **C56.** Copying a star name never writes past the declared length of the buffer: on success the
buffer keeps its length and starts with the name followed by a zero byte; in every other case it is
unchanged. -/
theorem star_name_in_bounds (handle buf : Addr) (name : List UInt8) (bufLen : Nat)
    (buffer : List UInt8) (hl : bufLen ≤ buffer.length) :
    (starName handle buf name bufLen buffer).2.length = buffer.length ∧
    (∀ i, bufLen ≤ i → (starName handle buf name bufLen buffer).2[i]? = buffer[i]?) ∧
    ((starName handle buf name bufLen buffer).1 = .ok ↔
      handle ≠ 0 ∧ buf ≠ 0 ∧ name.length < bufLen) ∧
    ((starName handle buf name bufLen buffer).1 = .ok →
      (starName handle buf name bufLen buffer).2.take (name.length + 1) = name ++ [0]) ∧
    ((starName handle buf name bufLen buffer).1 ≠ .ok →
      (starName handle buf name bufLen buffer).2 = buffer) := by
  unfold starName
  by_cases h : handle = 0 ∨ buf = 0
  · rw [if_pos h]
    refine ⟨rfl, fun _ _ => rfl, ?_, by simp, fun _ => rfl⟩
    simp; tauto
  · rw [if_neg h]
    push Not at h
    by_cases h2 : name.length + 1 > bufLen
    · rw [if_pos h2]
      refine ⟨rfl, fun _ _ => rfl, ?_, by simp, fun _ => rfl⟩
      simp; omega
    · rw [if_neg h2]
      push Not at h2
      refine ⟨?_, ?_, ?_, ?_, by simp⟩
      · simp; omega
      · intro i hi
        rw [List.getElem?_append_right (by simp; omega), List.getElem?_drop]
        congr 1
        simp; omega
      · simp only [true_iff]; exact ⟨h.1, h.2, by omega⟩
      · intro _
        have : name.length + 1 = (name ++ [0]).length := by simp
        rw [this, List.take_left' rfl]

/-! ## Search and scalar calls -/

/-- **C56.** A search call that does not succeed — whatever the reason, a panic included — writes
nothing and allocates nothing. -/
theorem search_failure_silent {β σ δ ρ α : Type} (A : Alloc) (subject : Subject β σ δ)
    (start stop tol : F64) (search : Provider β σ δ → Rat × Rat → Rat → Option (List ρ))
    (conv : ρ → α) (out count : Addr) (m : Mem α)
    (h : (searchCall A subject start stop tol search conv out count m).1 ≠ .ok) :
    (searchCall A subject start stop tol search conv out count m).2 = m := by
  unfold searchCall at h ⊢
  cases h1 : windowFromC start stop with
  | error e => rfl
  | ok w =>
    rw [h1] at h
    cases h2 : optsFromC tol with
    | error e => rfl
    | ok t =>
      rw [h2] at h
      cases h3 : dispatch subject with
      | error e => rfl
      | ok p =>
        rw [h3] at h
        cases h4 : search p w t with
        | none => simp only [h4]; rfl
        | some items =>
          simp only [h4] at h ⊢
          by_cases hn : out = 0 ∨ count = 0
          · simp [vecToC, hn, guard]
          · simp [vecToC, hn, guard] at h

/-- The arguments a search accepts: a finite ordered window, a finite positive tolerance, a subject
without a null handle. -/
def Accepted {β σ δ : Type} (subject : Subject β σ δ) (start stop tol : F64) : Prop :=
  (∃ a b : Rat, start = .fin a ∧ stop = .fin b ∧ a ≤ b) ∧ (∃ t : Rat, tol = .fin t ∧ 0 < t) ∧
  subject ≠ .star none ∧ subject ≠ .generic none

theorem windowFromC_ok (start stop : F64) (a b : Rat) :
    windowFromC start stop = .ok (a, b) ↔ start = .fin a ∧ stop = .fin b ∧ a ≤ b := by
  unfold windowFromC
  cases start with
  | fin x =>
    cases stop with
    | fin y =>
      by_cases hxy : y < x
      · simp [F64.lt, hxy]
        rintro rfl rfl; exact hxy
      · simp [F64.lt, mjdFrom, hxy]
        push Not at hxy
        rintro rfl rfl; exact hxy
    | nan => simp [F64.lt, mjdFrom]
    | inf => simp [F64.lt, mjdFrom]
    | ninf => simp [F64.lt]
  | nan => cases stop <;> simp [F64.lt, mjdFrom]
  | inf => cases stop <;> simp [F64.lt, mjdFrom]
  | ninf => cases stop <;> simp [F64.lt, mjdFrom]

theorem optsFromC_ok (tol : F64) (t : Rat) : optsFromC tol = .ok t ↔ tol = .fin t ∧ 0 < t := by
  cases tol with
  | fin x =>
    by_cases h : x ≤ 0
    · simp [optsFromC, h]
      rintro rfl; exact h
    · simp [optsFromC, h]
      push Not at h
      rintro rfl; exact h
  | nan => simp [optsFromC]
  | inf => simp [optsFromC]
  | ninf => simp [optsFromC]

/-- **C56 (partial).** A search call with a null output pointer returns the null-pointer status and
writes nothing, provided its other arguments are acceptable and the computation returns.  Missing:
the other cases — see `search_null_not_first`. -/
theorem search_null_partial {β σ δ ρ α : Type} (A : Alloc) (subject : Subject β σ δ)
    (start stop tol : F64) (search : Provider β σ δ → Rat × Rat → Rat → Option (List ρ))
    (conv : ρ → α) (out count : Addr) (m : Mem α) (hacc : Accepted subject start stop tol)
    (hret : ∀ p w t, search p w t ≠ none) (hn : out = 0 ∨ count = 0) :
    searchCall A subject start stop tol search conv out count m = (.nullPointer, m) := by
  obtain ⟨⟨a, b, ha, hb, hab⟩, ⟨t, ht, htp⟩, hs1, hs2⟩ := hacc
  have h1 := (windowFromC_ok start stop a b).2 ⟨ha, hb, hab⟩
  have h2 := (optsFromC_ok tol t).2 ⟨ht, htp⟩
  have h3 : ∃ p, dispatch subject = .ok p := by
    cases subject with
    | body b => exact ⟨_, rfl⟩
    | star h => cases h with
      | none => exact absurd rfl hs1
      | some s => exact ⟨_, rfl⟩
    | icrs f x y => exact ⟨_, rfl⟩
    | generic h => cases h with
      | none => exact absurd rfl hs2
      | some s => exact ⟨_, rfl⟩
  obtain ⟨p, h3⟩ := h3
  unfold searchCall
  simp only [h1, h2, h3]
  cases h4 : search p (a, b) t with
  | none => exact absurd h4 (hret _ _ _)
  | some items => simp [vecToC, hn, guard]

/-- **C56, violated part.** The output pointers of a search are looked at last: with null output
pointers and a reversed window the status is invalid-period, and when the computation panics it is
internal-panic; the null-pointer status is not returned. -/
theorem search_null_not_first {β σ δ ρ α : Type} (A : Alloc) (subject : Subject β σ δ)
    (search : Provider β σ δ → Rat × Rat → Rat → Option (List ρ)) (conv : ρ → α) (m : Mem α)
    (a b : Rat) :
    (b < a → ∀ tol, (searchCall A subject (.fin a) (.fin b) tol search conv 0 0 m).1 =
      .invalidPeriod) ∧
    (∀ x : β, a ≤ b → (∀ p w t, search p w t = none) →
      (searchCall A (.body x) (.fin a) (.fin b) (.fin 1) search conv 0 0 m).1 =
        .internalPanic) := by
  refine ⟨?_, ?_⟩
  · intro h tol
    simp [searchCall, windowFromC, F64.lt, h, guard]
  · intro x h hp
    have h1 := (windowFromC_ok (.fin a) (.fin b) a b).2 ⟨rfl, rfl, h⟩
    have h2 := (optsFromC_ok (.fin 1) 1).2 ⟨rfl, by decide⟩
    simp [searchCall, h1, h2, dispatch, hp, guard]

/-- **C56.** A search call succeeds exactly when its arguments are acceptable, its outputs are not
null and the computation returns; the caller then reads exactly the converted results of the same
Rust search on the same window, tolerance and subject. -/
theorem search_success {β σ δ ρ α : Type} (A : Alloc) (hA : AllocOk A) (subject : Subject β σ δ)
    (start stop tol : F64) (search : Provider β σ δ → Rat × Rat → Rat → Option (List ρ))
    (conv : ρ → α) (out count : Addr) (m : Mem α) (hoc : out ≠ count) :
    (searchCall A subject start stop tol search conv out count m).1 = .ok ↔
    ∃ a b t p items, start = .fin a ∧ stop = .fin b ∧ a ≤ b ∧ tol = .fin t ∧ 0 < t ∧
      dispatch subject = .ok p ∧ search p (a, b) t = some items ∧ out ≠ 0 ∧ count ≠ 0 ∧
      ∃ q, (searchCall A subject start stop tol search conv out count m).2.cells out =
          some (.word q) ∧
        (searchCall A subject start stop tol search conv out count m).2.cells count =
          some (.word items.length) ∧
        (items ≠ [] → (q, items.map conv) ∈
          (searchCall A subject start stop tol search conv out count m).2.heap) := by
  have key : ∀ a b t p items, windowFromC start stop = .ok (a, b) → optsFromC tol = .ok t →
      dispatch subject = .ok p → search p (a, b) t = some items →
      searchCall A subject start stop tol search conv out count m =
        vecToC A items conv out count m := by
    intro a b t p items h1 h2 h3 h4
    simp only [searchCall, h1, h2, h3, h4]
    rfl
  constructor
  · intro h
    cases h1 : windowFromC start stop with
    | error e =>
      simp only [searchCall, h1, guard] at h
      subst h
      exfalso
      unfold windowFromC at h1
      cases start <;> cases stop <;> simp [F64.lt, mjdFrom] at h1
      split at h1 <;> cases h1
    | ok w =>
      obtain ⟨a, b⟩ := w
      cases h2 : optsFromC tol with
      | error e =>
        simp only [searchCall, h1, h2, guard] at h
        subst h
        exfalso
        cases tol <;> simp [optsFromC] at h2
        split at h2 <;> cases h2
      | ok t =>
        cases h3 : dispatch subject with
        | error e =>
          simp only [searchCall, h1, h2, h3, guard] at h
          subst h
          exfalso
          cases subject with
          | body b => cases h3
          | star h => cases h <;> cases h3
          | icrs f x y => cases h3
          | generic h => cases h <;> cases h3
        | ok p =>
          cases h4 : search p (a, b) t with
          | none => simp [searchCall, h1, h2, h3, h4, guard] at h
          | some items =>
            rw [key a b t p items h1 h2 h3 h4] at h ⊢
            obtain ⟨ha, hb, hab⟩ := (windowFromC_ok _ _ _ _).1 h1
            obtain ⟨ht, htp⟩ := (optsFromC_ok _ _).1 h2
            by_cases hn : out = 0 ∨ count = 0
            · simp [vecToC, hn] at h
            · push Not at hn
              obtain ⟨q, m', hv, -, h5, h6, -, h7, -, -⟩ :=
                array_contract A hA items conv out count m hn.1 hn.2 hoc
              refine ⟨a, b, t, p, items, ha, hb, hab, ht, htp, rfl, h4, hn.1, hn.2, q, ?_⟩
              rw [hv]
              exact ⟨h5, h6, fun he => (h7 he).1⟩
  · rintro ⟨a, b, t, p, items, ha, hb, hab, ht, htp, h3, h4, ho, hc, -⟩
    rw [key a b t p items ((windowFromC_ok _ _ _ _).2 ⟨ha, hb, hab⟩)
      ((optsFromC_ok _ _).2 ⟨ht, htp⟩) h3 h4]
    obtain ⟨q, m', hv, -⟩ := array_contract A hA items conv out count m ho hc hoc
    rw [hv]

example : (searchCall bump (.body "Sun" : Subject String Nat Nat) (.fin 60000) (.fin 60001)
    (.fin (1 / 1000)) (fun _ w _ => some [w.1, w.2]) (fun x => x + 1) 10 20
    ⟨fun _ => none, []⟩).1 = .ok := by decide +kernel

/-- **C56.** The instantaneous calls check the output pointer first: null output gives the
null-pointer status whatever the other arguments are and whatever the computation would do, and a
call that does not succeed writes nothing. -/
theorem scalar_null_first {β σ δ α : Type} (subject : Subject β σ δ) (mjd : F64)
    (eval : Provider β σ δ → Rat → Option α) (out : Addr) (m : Mem α) :
    (out = 0 → scalarCall subject mjd eval out m = (.nullPointer, m)) ∧
    ((scalarCall subject mjd eval out m).1 ≠ .ok → (scalarCall subject mjd eval out m).2 = m) ∧
    (∀ p t v, out ≠ 0 → dispatch subject = .ok p → mjd = .fin t → eval p t = some v →
      (scalarCall subject mjd eval out m).1 = .ok ∧
      (scalarCall subject mjd eval out m).2.cells out = some (.record v)) := by
  refine ⟨fun h => by simp [scalarCall, h, guard], ?_, ?_⟩
  · intro h
    unfold scalarCall at h ⊢
    by_cases ho : out = 0
    · simp [ho, guard]
    · rw [if_neg ho] at h ⊢
      cases h1 : dispatch subject with
      | error e => rfl
      | ok p =>
        rw [h1] at h
        cases h2 : mjdFrom mjd with
        | error e => simp only; rfl
        | ok t =>
          simp only [h2] at h ⊢
          cases h3 : eval p t with
          | none => rfl
          | some v => simp [h3, guard] at h
  · rintro p t v ho h1 rfl h3
    simp [scalarCall, ho, h1, mjdFrom, h3, guard, Mem.store]

/-- **C74, violated.** A generic target is queried at its catalogue position: two targets that
differ only in epoch and proper motion give the same answer at every instant, for every search and
every evaluation. -/
theorem generic_target_motion_ignored {β σ δ ρ α : Type} (A : Alloc) (d : δ) (e1 e2 : Rat)
    (pm1 pm2 : Option ProperMotion) (start stop tol mjd : F64)
    (search : Provider β σ δ → Rat × Rat → Rat → Option (List ρ)) (conv : ρ → α)
    (eval : Provider β σ δ → Rat → Option α) (out count : Addr) (m : Mem α) :
    scalarCall (.generic (some ⟨d, e1, pm1⟩)) mjd eval out m =
      scalarCall (.generic (some ⟨d, e2, pm2⟩)) mjd eval out m ∧
    searchCall A (.generic (some ⟨d, e1, pm1⟩)) start stop tol search conv out count m =
      searchCall A (.generic (some ⟨d, e2, pm2⟩)) start stop tol search conv out count m :=
  ⟨rfl, rfl⟩

/-- **C74, violated.** A fixed-direction subject is used as an ICRS direction whatever frame it is
labelled with. -/
theorem icrs_subject_frame_ignored {β σ δ : Type} (f g : String) (az p : Rat) :
    dispatch (.icrs f az p : Subject β σ δ) = dispatch (.icrs g az p) := rfl

/-- **C74 (partial).** A subject resolves to the thing it names: the body, the star, the direction
or the target's position; only a null handle is refused.  Missing: the proper motion of a generic
target and the frame of a direction. -/
theorem dispatch_faithful_partial {β σ δ : Type} (s : Subject β σ δ) :
    (dispatch s = .error .nullPointer ↔ s = .star none ∨ s = .generic none) ∧
    (∀ b, dispatch s = .ok (.body b) ↔ s = .body b) ∧
    (∀ t, dispatch s = .ok (.star t) ↔ s = .star (some t)) ∧
    (∀ az p, dispatch s = .ok (.icrs az p) ↔ ∃ f, s = .icrs f az p) ∧
    (∀ d, dispatch s = .ok (.position d) ↔ ∃ t : Target δ, s = .generic (some t) ∧ t.position = d) := by
  cases s with
  | body b => simp [dispatch]
  | star h => cases h <;> simp [dispatch]
  | icrs f a p => simp [dispatch]
  | generic h => cases h <;> simp [dispatch]

/-! ## Centre shifts -/

section Shift
variable {V : Type} [AddCommGroup V] [Module ℚ V]

namespace Spec

/-- Where the origin of a centre lies, seen from the solar-system barycentre, in au. -/
def origin (e : Eph V) : Nat → V
  | 0 => 0
  | 1 => e.sunBary
  | _ => e.sunBary + e.earthHelio

/-- Length of one unit in au (positive; the three large or small factors only matter through being
different from one). -/
structure Scale where
  f : LengthUnit → ℚ
  au : f .au = 1
  other : ∀ u, u ≠ .au → f u ≠ 1

/-- The same by centre, for the three centres that have a fixed origin. -/
def originOf (e : Eph V) : Center → V
  | .barycentric => 0
  | .heliocentric => e.sunBary
  | .geocentric => e.sunBary + e.earthHelio
  | _ => 0

/-- The point a C position denotes, seen from the barycentre, in au. -/
def point (s : Scale) (e : Eph V) (x : Pos V) : V :=
  s.f x.lengthUnit • x.p + originOf e x.center

end Spec

/-- **C72.** For the documented centre codes and an accepted date the shift always succeeds, and
position and shifted position denote the same point of space. -/
theorem shift_same_point (e : Eph V) (p : V) (src dst : Nat) (hs : src < 3) (hd : dst < 3) :
    ∃ q, shiftCenter (some e) p src dst = .ok q ∧
      q + Spec.origin e dst = p + Spec.origin e src := by
  unfold shiftCenter
  by_cases h : src = dst
  · rw [if_pos h]; exact ⟨p, rfl, by rw [h]⟩
  · rw [if_neg h]
    refine ⟨_, rfl, ?_⟩
    match src, dst, hs, hd with
    | 0, 0, _, _ => exact absurd rfl h
    | 0, 1, _, _ => simp [Spec.origin]
    | 0, 2, _, _ => simp [Spec.origin]
    | 1, 0, _, _ => simp [Spec.origin]
    | 1, 1, _, _ => exact absurd rfl h
    | 1, 2, _, _ => simp only [Spec.origin]; abel
    | 2, 0, _, _ => simp only [Spec.origin]; abel
    | 2, 1, _, _ => simp only [Spec.origin]; abel
    | 2, 2, _, _ => exact absurd rfl h

/-- **C72.** Shifts compose and invert: going through a third centre changes nothing, and shifting
back returns the position. -/
theorem shift_compose (e : Eph V) (p q r : V) (a b c : Nat) (ha : a < 3) (hb : b < 3) (hc : c < 3)
    (h1 : shiftCenter (some e) p a b = .ok q) (h2 : shiftCenter (some e) q b c = .ok r) :
    shiftCenter (some e) p a c = .ok r := by
  obtain ⟨q', hq, e1⟩ := shift_same_point e p a b ha hb
  obtain ⟨r', hr, e2⟩ := shift_same_point e q b c hb hc
  obtain ⟨r'', hr', e3⟩ := shift_same_point e p a c ha hc
  rw [h1] at hq; cases hq
  rw [h2] at hr; cases hr
  rw [hr']
  congr 1
  have : r'' + Spec.origin e c = r + Spec.origin e c := by rw [e3, e2, e1]
  exact add_right_cancel this

theorem shift_invert (e : Eph V) (p q : V) (a b : Nat) (ha : a < 3) (hb : b < 3)
    (h : shiftCenter (some e) p a b = .ok q) : shiftCenter (some e) q b a = .ok p := by
  obtain ⟨r, hr, e2⟩ := shift_same_point e q b a hb ha
  have := shift_compose e p q r a b a ha hb ha h hr
  unfold shiftCenter at this
  rw [if_pos rfl] at this
  cases this
  exact hr

/-- **C72.** The centre shift of the interface refuses exactly the topocentric and body-centric
centres (either side) and, when the centres differ, a date that is not accepted. -/
theorem transform_center_total (eph : Option (Eph V)) (x : Pos V) (dst : Center) :
    (transformCenter eph x dst = .error .invalidCenter ↔
      x.center = .topocentric ∨ x.center = .bodycentric ∨ dst = .topocentric ∨
        dst = .bodycentric) ∧
    (∀ y, transformCenter eph x dst = .ok y →
      y.center = dst ∧ y.frame = x.frame ∧ y.lengthUnit = x.lengthUnit) := by
  obtain ⟨p, f, c, u⟩ := x
  refine ⟨?_, ?_⟩
  · cases eph <;> cases c <;> cases dst <;> simp [transformCenter, shiftCode, shiftCenter]
  · intro y hy
    cases eph <;> cases c <;> cases dst <;>
      simp [transformCenter, shiftCode, shiftCenter] at hy <;> subst hy <;> exact ⟨rfl, rfl, rfl⟩

/-- The code used for a centre is one of the three, and stands for its origin. -/
theorem shiftCode_origin (e : Eph V) (c : Center) (a : Nat) (h : shiftCode c = some a) :
    a < 3 ∧ Spec.origin e a = Spec.originOf e c := by
  cases c <;> simp [shiftCode] at h <;> subst h <;> exact ⟨by decide, rfl⟩

theorem transform_ok (e : Eph V) (x y : Pos V) (dst : Center)
    (h : transformCenter (some e) x dst = .ok y) :
    y.p + Spec.originOf e dst = x.p + Spec.originOf e x.center ∧ y.center = dst ∧
      y.lengthUnit = x.lengthUnit := by
  cases ha : shiftCode x.center with
  | none => simp [transformCenter, ha] at h
  | some a =>
    cases hb : shiftCode dst with
    | none => simp [transformCenter, ha, hb] at h
    | some b =>
      obtain ⟨ha3, hao⟩ := shiftCode_origin e _ _ ha
      obtain ⟨hb3, hbo⟩ := shiftCode_origin e _ _ hb
      obtain ⟨q, hq, heq⟩ := shift_same_point e x.p a b ha3 hb3
      simp only [transformCenter, ha, hb, hq] at h
      cases h
      exact ⟨by rw [← hao, ← hbo]; exact heq, rfl, rfl⟩

/-- **C72 (partial).** For positions in au the shifted position denotes the same point.  Missing:
other length units — see `transform_center_units`. -/
theorem transform_center_au_partial (s : Spec.Scale) (e : Eph V) (x y : Pos V) (dst : Center)
    (hx : x.lengthUnit = .au) (h : transformCenter (some e) x dst = .ok y) :
    Spec.point s e y = Spec.point s e x := by
  obtain ⟨h1, h2, h3⟩ := transform_ok e x y dst h
  simp only [Spec.point, h2, h3, hx, s.au, one_smul]
  exact h1

/-- **C72, violated.** In any other unit the offset, computed in au, is added to numbers in that
unit: the result denotes the same point only if the two centres coincide. -/
theorem transform_center_units (s : Spec.Scale) (e : Eph V) (x y : Pos V) (dst : Center)
    (hx : x.lengthUnit ≠ .au) (h : transformCenter (some e) x dst = .ok y) :
    Spec.point s e y = Spec.point s e x ↔ Spec.originOf e x.center = Spec.originOf e dst := by
  obtain ⟨heq, h2, h3⟩ := transform_ok e x y dst h
  simp only [Spec.point, h2, h3]
  have hq' : y.p = x.p + (Spec.originOf e x.center - Spec.originOf e dst) := by
    rw [← add_sub_assoc, ← heq, add_sub_cancel_right]
  have hk := s.other _ hx
  rw [hq', smul_add]
  constructor
  · intro h0
    have h1 : (s.f x.lengthUnit - 1) • (Spec.originOf e x.center - Spec.originOf e dst) = 0 := by
      rw [sub_smul, one_smul, sub_eq_zero, eq_sub_iff_add_eq]
      apply add_left_cancel (a := s.f x.lengthUnit • x.p)
      rw [← add_assoc]; exact h0
    rcases smul_eq_zero.1 h1 with h2 | h2
    · exact absurd (sub_eq_zero.1 h2) hk
    · exact sub_eq_zero.1 h2
  · intro h0
    rw [h0, sub_self, smul_zero, add_zero]

example : ∃ y, transformCenter (some ⟨(2 : ℚ), 3⟩) ⟨10, "EclipticMeanJ2000", .geocentric, .km⟩
    .heliocentric = .ok y ∧ Spec.originOf (⟨(2 : ℚ), 3⟩ : Eph ℚ) .geocentric ≠
      Spec.originOf ⟨(2 : ℚ), 3⟩ .heliocentric :=
  ⟨⟨10 + 3, "EclipticMeanJ2000", .heliocentric, .km⟩, rfl, by norm_num [Spec.originOf]⟩

/-- **C72.** Body-centric conversion and back, for a position in au from any accepted centre and an
orbit with a documented centre code: the result is the same as shifting the position to the
geocentre. -/
theorem bodycentric_round_trip (e : Eph V) (k : V) (oc : Nat) (hoc : oc < 3) (x y z : Pos V)
    (hx : x.lengthUnit = .au) (h1 : toBodycentric (some e) (some k) oc x = .ok y)
    (h2 : fromBodycentric (some e) (some k) oc y = .ok z) :
    transformCenter (some e) x .geocentric = .ok z := by
  unfold toBodycentric at h1
  cases hc : shiftCode x.center with
  | none => rw [hc] at h1; cases h1
  | some a =>
    have ha3 : a < 3 := by
      cases hcc : x.center <;> rw [hcc] at hc <;> simp [shiftCode] at hc <;> omega
    rw [hc] at h1
    obtain ⟨b1, hb1, e1⟩ := shift_same_point e k oc a hoc ha3
    obtain ⟨b2, hb2, e2⟩ := shift_same_point e k oc 2 hoc (by omega)
    obtain ⟨q, hq, e3⟩ := shift_same_point e x.p a 2 ha3 (by omega)
    simp only [hb1] at h1
    cases h1
    simp only [fromBodycentric, hb2] at h2
    cases h2
    have hqq : q = x.p - b1 + b2 := by
      apply add_right_cancel (b := Spec.origin e 2)
      rw [e3, add_assoc, e2, ← e1]
      abel
    have hg : shiftCode .geocentric = some 2 := rfl
    simp only [transformCenter, hc, hg, hq, hqq, hx]

/-- **C72.** The body-centric vector, in au, is the vector from the body to the point. -/
theorem bodycentric_vector (e : Eph V) (k : V) (oc : Nat) (hoc : oc < 3) (x y : Pos V)
    (h : toBodycentric (some e) (some k) oc x = .ok y) :
    y.p = (x.p + Spec.originOf e x.center) - (k + Spec.origin e oc) ∧ y.center = .bodycentric := by
  cases ha : shiftCode x.center with
  | none => simp [toBodycentric, ha] at h
  | some a =>
  obtain ⟨ha3, hao⟩ := shiftCode_origin e _ _ ha
  rw [← hao]
  obtain ⟨b1, hb1, e1⟩ := shift_same_point e k oc a hoc ha3
  simp only [toBodycentric, ha, hb1] at h
  cases h
  refine ⟨?_, rfl⟩
  show x.p - b1 = _
  rw [← e1]; abel

/-- **C72, violated.** For a geocentric position in any other unit the trip through body-centric
coordinates returns the same numbers relabelled as au. -/
theorem bodycentric_unit_lost (e : Eph V) (k : V) (oc : Nat) (x y z : Pos V)
    (hc : x.center = .geocentric) (hx : x.lengthUnit ≠ .au)
    (h1 : toBodycentric (some e) (some k) oc x = .ok y)
    (h2 : fromBodycentric (some e) (some k) oc y = .ok z) :
    z.p = x.p ∧ z.lengthUnit = .au ∧ z.lengthUnit ≠ x.lengthUnit := by
  cases h3 : shiftCenter (some e) k oc 2 with
  | error s => simp [toBodycentric, hc, shiftCode, h3] at h1
  | ok b =>
    simp only [toBodycentric, hc, shiftCode, h3] at h1
    cases h1
    simp only [fromBodycentric, h3] at h2
    cases h2
    exact ⟨by simp, rfl, fun h => hx h.symm⟩

example : ∃ y z, toBodycentric (some ⟨(2 : ℚ), 3⟩) (some 5) 1 ⟨10, "EclipticMeanJ2000", .geocentric, .km⟩ =
      .ok y ∧ fromBodycentric (some ⟨(2 : ℚ), 3⟩) (some 5) 1 y = .ok z ∧ z.p = 10 :=
  ⟨⟨10 - (5 - 3), "EclipticMeanJ2000", .bodycentric, .km⟩,
   ⟨10 - (5 - 3) + (5 - 3), "EclipticMeanJ2000", .geocentric, .au⟩, rfl, rfl, by norm_num⟩

/-- **C72, violated.** An orbit-centre code outside the documented ones is not refused: the orbit is
taken as heliocentric. -/
theorem unknown_orbit_center (eph : Option (Eph V)) (body : Option V) (oc : Nat) (x : Pos V)
    (hoc : 2 < oc) (e : Eph V) (he : eph = some e) :
    toBodycentric eph body oc x = toBodycentric eph body 1 x ∧
    fromBodycentric eph body oc x = fromBodycentric eph body 1 x := by
  subst he
  have hs : ∀ k c, c < 3 → shiftCenter (some e) k oc c = shiftCenter (some e) k 1 c := by
    intro k c hc
    match oc, hoc with
    | n + 3, _ =>
      unfold shiftCenter
      rw [if_neg (by omega)]
      match c, hc with
      | 0, _ => rfl
      | 1, _ => rfl
      | 2, _ => rfl
  refine ⟨?_, ?_⟩
  · unfold toBodycentric
    cases hc : x.center <;> simp only [shiftCode] <;> cases body <;> simp only [hs _ _ (by decide : 0 < 3),
      hs _ _ (by decide : 1 < 3), hs _ _ (by decide : 2 < 3)]
  · unfold fromBodycentric
    cases body <;> simp only [hs _ _ (by decide : 2 < 3)]

end Shift

/-! ## Directions -/

namespace Spec
/-- What a C direction must say about a direction of the Rust API. -/
def Denotes (c : CDir) (d : Dir) : Prop := c.polarDeg = d.polar ∧ c.azimuthDeg = d.azimuth
end Spec

/-- **C73.** A frame change through C denotes the direction the Rust API computes, labelled with the
requested frame; exactly the five documented frames are accepted on either side. -/
theorem frame_change_faithful (rot : String → String → Dir → Dir) (jdOk : Bool) (p az : Rat)
    (src dst : String) :
    (∀ c, transformFrame rot jdOk p az src dst = .ok c →
      Spec.Denotes c (rot src dst ⟨p, az⟩) ∧ c.frame = dst) ∧
    (transformFrame rot jdOk p az src dst = .error .invalidFrame ↔
      src ∉ ["ICRS", "EclipticMeanJ2000", "EquatorialMeanJ2000", "EquatorialMeanOfDate",
        "EquatorialTrueOfDate"] ∨
      dst ∉ ["ICRS", "EclipticMeanJ2000", "EquatorialMeanJ2000", "EquatorialMeanOfDate",
        "EquatorialTrueOfDate"]) := by
  have hs : ∀ f, supportedFrame f = true ↔ f ∈ ["ICRS", "EclipticMeanJ2000",
      "EquatorialMeanJ2000", "EquatorialMeanOfDate", "EquatorialTrueOfDate"] := by
    intro f; simp [supportedFrame, or_assoc]
  rw [← hs, ← hs]
  unfold transformFrame
  cases h1 : supportedFrame src
  · simp
  · cases h2 : supportedFrame dst
    · simp
    · cases jdOk
      · simp
      · simp [sphToPair, Spec.Denotes]

/-- **C73, violated.** The horizontal conversion through C has its two angles exchanged for every
input: the field documented as altitude holds the azimuth of the direction the Rust API computes and
the azimuth field holds its altitude.  The result denotes that direction only when altitude and
azimuth happen to be equal. -/
theorem horizontal_swapped (toHz : String → Dir → Dir) (p az : Rat) (src : String) (c : CDir)
    (h : toHorizontal toHz true p az src = .ok c) :
    c.polarDeg = (toHz src ⟨p, az⟩).azimuth ∧ c.azimuthDeg = (toHz src ⟨p, az⟩).polar ∧
    (Spec.Denotes c (toHz src ⟨p, az⟩) ↔ (toHz src ⟨p, az⟩).polar = (toHz src ⟨p, az⟩).azimuth) := by
  unfold toHorizontal at h
  cases h1 : supportedFrame src
  · simp [h1] at h
  · simp [h1, sphToPair] at h
    subst h
    simp [Spec.Denotes, eq_comm]

example : toHorizontal (fun _ _ => ⟨30, 200⟩) true 10 20 "ICRS" = .ok ⟨200, 30, "Horizontal"⟩ := by
  decide +kernel

/-- **C73 (partial).** The horizontal conversion accepts exactly the documented source frames and
labels its result as horizontal.  Missing: the two angles (see `horizontal_swapped`). -/
theorem horizontal_accepts_partial (toHz : String → Dir → Dir) (jdOk : Bool) (p az : Rat)
    (src : String) :
    (toHorizontal toHz jdOk p az src = .error .invalidFrame ↔
      src ∉ ["ICRS", "EclipticMeanJ2000", "EquatorialMeanJ2000", "EquatorialMeanOfDate",
        "EquatorialTrueOfDate"]) ∧
    (∀ c, toHorizontal toHz jdOk p az src = .ok c → c.frame = "Horizontal") := by
  have hs : supportedFrame src = true ↔ src ∈ ["ICRS", "EclipticMeanJ2000",
      "EquatorialMeanJ2000", "EquatorialMeanOfDate", "EquatorialTrueOfDate"] := by
    simp [supportedFrame, or_assoc]
  rw [← hs]
  unfold toHorizontal
  cases h1 : supportedFrame src
  · simp
  · cases jdOk
    · simp
    · simp only [Bool.not_true, Bool.false_eq_true, if_false, sphToPair]
      refine ⟨by simp, ?_⟩
      intro c hc
      cases hc; rfl

end Verif.Ffi.Props
