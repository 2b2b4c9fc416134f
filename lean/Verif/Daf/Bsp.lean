import Verif.Daf.Props

/-!
`parse_bsp` (/repo/src/formats/spice/spk.rs 50-78, 275-324): the segments of the Sun, the Earth-Moon barycentre, the Moon
and, if present, the Earth, picked from a planetary kernel.
-/
namespace Verif.Daf.Bsp
open Verif.Daf Verif.Bits Verif.Text

/-- spk.rs 282-296, 308-315: the errors of `parse_bsp` itself. -/
inductive BErr where
  | daf (e : Err)
  | missing (target center : Int)
  | dataType (target center : Int)
deriving DecidableEq

/-- spk.rs 67-78. -/
structure Segments where
  sun : SegmentData
  emb : SegmentData
  moon : SegmentData
  earth : Option SegmentData

def lift {α : Type} : Res Err α → Res BErr α
  | .ok a => .ok a
  | .err e => .err (.daf e)
  | .panic => .panic

/-- spk.rs 278-282. -/
def findSummary (sums : List Summary) (target center : Int) : Option Summary :=
  sums.find? fun s => s.target = target ∧ s.center = center

/-- spk.rs 284-301. -/
def findSegment (ck : Bool) (data : Bytes) (sums : List Summary) (target center : Int) : Res BErr SegmentData :=
  match findSummary sums target center with
  | none => .err (.missing target center)
  | some s =>
    if s.dataType ≠ 2 ∧ s.dataType ≠ 3 then .err (.dataType target center) else lift (readSegment ck data s)

/-- spk.rs 303-323, after the summaries have been read; the numbers are those of lines 50-64. -/
def pick (ck : Bool) (data : Bytes) (sums : List Summary) : Res BErr Segments :=
  (findSegment ck data sums 10 0).bind fun sun =>
  (findSegment ck data sums 3 0).bind fun emb =>
  (findSegment ck data sums 301 3).bind fun moon =>
  match findSummary sums 399 3 with
  | some s =>
    if s.dataType = 2 ∨ s.dataType = 3 then
      (lift (readSegment ck data s)).bind fun earth => .ok ⟨sun, emb, moon, some earth⟩
    else .err (.dataType 399 3)
  | none => .ok ⟨sun, emb, moon, none⟩

/-- `parse_bsp` (spk.rs 275-324). -/
def parseBsp (ck : Bool) (other : Bytes → Bool) (fuel : Nat) (data : Bytes) : Option (Res BErr Segments) :=
  (parseSpk ck other fuel data).map fun r => (lift r).bind (pick ck data)

/-! ### What is picked -/

/-- `s` is the first summary for the pair. -/
def First (sums : List Summary) (target center : Int) (s : Summary) : Prop :=
  ∃ pre post, sums = pre ++ s :: post ∧ (s.target = target ∧ s.center = center) ∧
    ∀ p ∈ pre, ¬ (p.target = target ∧ p.center = center)

/-- The segment `d` is what the words of the first summary for the pair hold, in a readable format. -/
def Holds (ck : Bool) (data : Bytes) (sums : List Summary) (target center : Int) (d : SegmentData) : Prop :=
  ∃ s, First sums target center s ∧ (s.dataType = 2 ∨ s.dataType = 3) ∧ readSegment ck data s = .ok d

theorem find_first {sums : List Summary} {t c : Int} {s : Summary} :
    findSummary sums t c = some s ↔ First sums t c s := by
  unfold findSummary First
  rw [List.find?_eq_some_iff_append]
  constructor
  · rintro ⟨h, pre, post, rfl, hp⟩
    exact ⟨pre, post, rfl, by simpa using h, fun p hm hq => by have := hp p hm; simp [hq] at this⟩
  · rintro ⟨pre, post, rfl, h, hp⟩
    exact ⟨by simpa using h, pre, post, rfl, fun p hm => by
      have := hp p hm
      simp only [Bool.not_eq_true', decide_eq_false_iff_not]
      exact this⟩

theorem find_none {sums : List Summary} {t c : Int} :
    findSummary sums t c = none ↔ ∀ s ∈ sums, ¬ (s.target = t ∧ s.center = c) := by
  unfold findSummary
  rw [List.find?_eq_none]
  simp

theorem lift_ok {α : Type} {r : Res Err α} {a : α} : lift r = .ok a ↔ r = .ok a := by
  cases r <;> simp [lift]

theorem bind_ok {α β : Type} {r : Res BErr α} {f : α → Res BErr β} {b : β} :
    r.bind f = .ok b ↔ ∃ a, r = .ok a ∧ f a = .ok b := by
  cases r <;> simp [Res.bind]

theorem findSegment_ok {ck : Bool} {data : Bytes} {sums : List Summary} {t c : Int} {d : SegmentData} :
    findSegment ck data sums t c = .ok d ↔ Holds ck data sums t c d := by
  unfold findSegment Holds
  cases h : findSummary sums t c with
  | none =>
    constructor
    · intro h'; cases h'
    · rintro ⟨s, hs, _⟩
      rw [find_first.mpr hs] at h; cases h
  | some s =>
    have hf := find_first.mp h
    have hu : ∀ s', First sums t c s' → s' = s := by
      intro s' hs'
      have := find_first.mpr hs'
      rw [h] at this
      exact (Option.some.inj this).symm
    dsimp only
    split
    · rename_i hn
      constructor
      · intro h'; cases h'
      · rintro ⟨s', hs', ht, _⟩
        rw [hu s' hs'] at ht
        exact absurd ht (by rintro (h | h) <;> simp [h] at hn)
    · rename_i hn
      rw [lift_ok]
      constructor
      · intro h'
        refine ⟨s, hf, ?_, h'⟩
        by_contra hc
        push Not at hc
        exact hn hc
      · rintro ⟨s', hs', _, hr⟩
        rw [← hu s' hs']; exact hr

/-- In a file that fits in memory: the first summary for the pair points at a Chebyshev table laid out as the format
prescribes, and `d` is that table. -/
def Table (data : Bytes) (sums : List Summary) (target center : Int) (d : SegmentData) : Prop :=
  ∃ s, First sums target center s ∧ d.dataType = s.dataType ∧
    Verif.Daf.Spec.ChebLayout data s.startWord s.endWord s.dataType d.init d.intlen d.rsize d.ncoeff d.nRecords d.records

theorem holds_table {ck : Bool} {data : Bytes} (hlen : data.length < 2 ^ 63) {sums : List Summary} {t c : Int}
    {d : SegmentData} : Holds ck data sums t c d ↔ Table data sums t c d := by
  constructor
  · rintro ⟨s, hf, _, hr⟩
    have hl := (spk_segment_table hlen hr).2
    have h1 := hl.extent
    have h2 := hl.inFile
    have hr' := (spk_segment_iff_layout (by omega) (by omega)).mp hr
    exact ⟨s, hf, hr'.1, hl⟩
  · rintro ⟨s, hf, hd, hl⟩
    have h1 := hl.extent
    have h2 := hl.inFile
    refine ⟨s, hf, ?_, (spk_segment_iff_layout (by omega) (by omega)).mpr ⟨hd, hl⟩⟩
    rcases hl.typed with h | h
    · exact .inl h.1
    · exact .inr h.1

/-- The result in terms of the reader of one segment: exactly the four segments of the first summaries for the four pairs: Sun from the barycentre of
the solar system, Earth-Moon barycentre likewise, Moon and Earth from the Earth-Moon barycentre. The first three must be
there; the Earth is left out exactly when no summary names it. -/
theorem pick_exact (ck : Bool) (data : Bytes) (sums : List Summary) (r : Segments) :
    pick ck data sums = .ok r ↔
      Holds ck data sums 10 0 r.sun ∧ Holds ck data sums 3 0 r.emb ∧ Holds ck data sums 301 3 r.moon ∧
      match r.earth with
      | some d => Holds ck data sums 399 3 d
      | none => ∀ s ∈ sums, ¬ (s.target = 399 ∧ s.center = 3) := by
  unfold pick
  simp only [bind_ok, findSegment_ok]
  have key : ∀ sun emb moon : SegmentData,
      ((match findSummary sums 399 3 with
        | some s =>
          if s.dataType = 2 ∨ s.dataType = 3 then
            (lift (readSegment ck data s)).bind fun earth => .ok ⟨sun, emb, moon, some earth⟩
          else .err (.dataType 399 3)
        | none => .ok ⟨sun, emb, moon, none⟩) = Res.ok r) ↔
      (r.sun = sun ∧ r.emb = emb ∧ r.moon = moon ∧ match r.earth with
      | some d => Holds ck data sums 399 3 d
      | none => ∀ s ∈ sums, ¬ (s.target = 399 ∧ s.center = 3)) := by
    intro sun emb moon
    obtain ⟨rs, re, rm, rE⟩ := r
    cases h : findSummary sums 399 3 with
    | none =>
      have hn := find_none.mp h
      dsimp only
      constructor
      · intro h'
        injection h' with h'
        injection h' with h1 h2 h3 h4
        subst h1 h2 h3 h4
        exact ⟨rfl, rfl, rfl, hn⟩
      · rintro ⟨rfl, rfl, rfl, h4⟩
        cases rE with
        | none => rfl
        | some d =>
          obtain ⟨s, hs, _⟩ := h4
          rw [find_first.mpr hs] at h; cases h
    | some s =>
      have hf := find_first.mp h
      dsimp only
      split
      · rename_i ht
        rw [bind_ok]
        constructor
        · rintro ⟨d, hd, h'⟩
          injection h' with h'
          injection h' with h1 h2 h3 h4
          subst h1 h2 h3 h4
          exact ⟨rfl, rfl, rfl, s, hf, ht, lift_ok.mp hd⟩
        · rintro ⟨rfl, rfl, rfl, h4⟩
          cases rE with
          | none =>
            obtain ⟨pre, post, hsum, hs, _⟩ := hf
            exact absurd hs (h4 s (by rw [hsum]; simp))
          | some d =>
            obtain ⟨s', hs', _, hr⟩ := h4
            have := find_first.mpr hs'
            rw [h] at this
            rw [Option.some.inj this]
            exact ⟨d, lift_ok.mpr hr, rfl⟩
      · rename_i ht
        constructor
        · intro h'; cases h'
        · rintro ⟨-, -, -, h4⟩
          cases rE with
          | none =>
            obtain ⟨pre, post, hsum, hs, _⟩ := hf
            exact absurd hs (h4 s (by rw [hsum]; simp))
          | some d =>
            obtain ⟨s', hs', ht', _⟩ := h4
            have := find_first.mpr hs'
            rw [h] at this
            rw [← Option.some.inj this] at ht'
            exact absurd ht' ht
  simp only [key]
  constructor
  · rintro ⟨a, ha, b, hb, c, hc, h1, h2, h3, h4⟩
    exact ⟨h1 ▸ ha, h2 ▸ hb, h3 ▸ hc, h4⟩
  · rintro ⟨h1, h2, h3, h4⟩
    exact ⟨_, h1, _, h2, _, h3, rfl, rfl, rfl, h4⟩

/-- C218: from the summaries of a file that fits in memory, the result is exactly the four coefficient tables that the
first summaries for the four pairs point at: Sun and Earth-Moon barycentre from the barycentre of the solar system, Moon
and Earth from the Earth-Moon barycentre. The first three must be there; the Earth is left out exactly when no summary
names it. -/
theorem picked_tables (ck : Bool) (data : Bytes) (hlen : data.length < 2 ^ 63) (sums : List Summary) (r : Segments) :
    pick ck data sums = .ok r ↔
      Table data sums 10 0 r.sun ∧ Table data sums 3 0 r.emb ∧ Table data sums 301 3 r.moon ∧
      match r.earth with
      | some d => Table data sums 399 3 d
      | none => ∀ s ∈ sums, ¬ (s.target = 399 ∧ s.center = 3) := by
  rw [pick_exact]
  simp only [holds_table hlen]

/-- C218: no panic in release builds, and none in debug builds unless a start word is within three of `usize::MAX`. -/
theorem pick_no_panic (ck : Bool) (data : Bytes) (sums : List Summary)
    (h : ck = false ∨ ∀ s ∈ sums, s.startWord + 3 < 2 ^ 64) : pick ck data sums ≠ .panic := by
  have hl : ∀ s ∈ sums, lift (readSegment ck data s) ≠ .panic := by
    intro s hs hp
    have h1 : readSegment ck data s ≠ .panic :=
      spk_segment_no_panic (h.imp id fun h => h s hs)
    cases hr : readSegment ck data s with
    | ok a => rw [hr] at hp; cases hp
    | err e => rw [hr] at hp; cases hp
    | panic => exact h1 hr
  have hmem : ∀ t c s, findSummary sums t c = some s → s ∈ sums := fun t c s hs => List.mem_of_find?_eq_some hs
  have hseg : ∀ t c, findSegment ck data sums t c ≠ .panic := by
    intro t c
    unfold findSegment
    cases hs : findSummary sums t c with
    | none => simp
    | some s =>
      dsimp only
      split
      · simp
      · exact hl s (hmem t c s hs)
  have hb : ∀ {α β : Type} (x : Res BErr α) (f : α → Res BErr β), x ≠ .panic → (∀ a, f a ≠ .panic) →
      x.bind f ≠ .panic := by
    intro α β x f hx hf
    cases x with
    | ok a => exact hf a
    | err e => intro h; cases h
    | panic => exact absurd rfl hx
  unfold pick
  refine hb _ _ (hseg _ _) fun sun => hb _ _ (hseg _ _) fun emb => hb _ _ (hseg _ _) fun moon => ?_
  cases hs : findSummary sums 399 3 with
  | none => simp
  | some s =>
    dsimp only
    split
    · exact hb _ _ (hl s (hmem _ _ s hs)) fun a => by simp
    · simp

/-- Not vacuous: without a summary for the Sun the file is refused. -/
example (ck : Bool) (data : Bytes) : pick ck data [] = .err (.missing 10 0) := rfl

/-- Nine words: one record (middle, radius, one coefficient per axis) and the trailer. -/
def nineWords : Bytes :=
  [0, 0, 0, 0, 0, 0, 0, 0, 0, 0, 0, 0, 0, 0, 240, 63, 0, 0, 0, 0, 0, 0, 89, 64, 0, 0, 0, 0, 0, 0, 105, 64, 0,
   0, 0, 0, 0, 192, 114, 64, 0, 0, 0, 0, 0, 0, 240, 191, 0, 0, 0, 0, 0, 0, 0, 64, 0, 0, 0, 0, 0, 0, 20, 64, 0,
   0, 0, 0, 0, 0, 240, 63]

def pointer (target center frame : Int) : Summary := ⟨0, 0, target, center, frame, 2, 1, 9⟩

/-- A file that is accepted: three summaries that point at the same table, with no Earth. -/
example : (match pick false nineWords [pointer 301 3 1, pointer 10 0 1, pointer 3 0 17] with
    | .ok r => r.earth.isNone && decide (r.sun.records =
        [0, 0x3FF0000000000000, 0x4059000000000000, 0x4069000000000000, 0x4072C00000000000])
    | _ => false) = true := by decide +kernel

/-- C218, finding: the reference frame of a summary plays no role. The same kernel with its summaries declared in any
other frame gives the same segments, although the sibling `parse_indexed_segments` leaves out everything that is not in
frame 1 (J2000). -/
theorem frame_ignored (ck : Bool) (data : Bytes) (sums : List Summary) (frame : Int) :
    pick ck data (sums.map fun s => { s with frame := frame }) = pick ck data sums := by
  have hfind : ∀ t c, findSummary (sums.map fun s => { s with frame := frame }) t c
      = (findSummary sums t c).map fun s => { s with frame := frame } := by
    intro t c
    unfold findSummary
    rw [List.find?_map]
    rfl
  have hread : ∀ s : Summary, readSegment ck data { s with frame := frame } = readSegment ck data s := fun _ => rfl
  have hseg : ∀ t c, findSegment ck data (sums.map fun s => { s with frame := frame }) t c
      = findSegment ck data sums t c := by
    intro t c
    unfold findSegment
    rw [hfind]
    cases findSummary sums t c with
    | none => rfl
    | some s => rfl
  unfold pick
  rw [hseg, hseg, hseg, hfind]
  cases findSummary sums 399 3 with
  | none => rfl
  | some s => rfl

/-- C218, finding: only the first segment of a pair is read. Whatever else a kernel holds for the pairs after the
segments picked, a second part of the covered time for instance, is passed over without a word. -/
theorem later_ignored (ck : Bool) (data : Bytes) (sums extra : List Summary) (r : Segments)
    (h : pick ck data sums = .ok r) (he : r.earth ≠ none) : pick ck data (sums ++ extra) = .ok r := by
  have happ : ∀ t c d, Holds ck data sums t c d → Holds ck data (sums ++ extra) t c d := by
    rintro t c d ⟨s, ⟨pre, post, rfl, h1, h2⟩, h3⟩
    exact ⟨s, ⟨pre, post ++ extra, by simp, h1, h2⟩, h3⟩
  rw [pick_exact] at h ⊢
  obtain ⟨h1, h2, h3, h4⟩ := h
  refine ⟨happ _ _ _ h1, happ _ _ _ h2, happ _ _ _ h3, ?_⟩
  cases hE : r.earth with
  | none => exact absurd hE he
  | some d =>
    rw [hE] at h4
    exact happ _ _ _ h4

end Verif.Daf.Bsp
