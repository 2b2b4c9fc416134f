import Verif.Obs.Lemmas

/-! Rows of observation files. -/
namespace Verif.Obs.Props
open Verif.Text Verif.Sp3 Verif.Rinex Verif.Obs
open Verif.Sp3.Props (Good plainEnv plainEnv_good rawLines_unlines words_pad words_pad_last intStr_ne intStr_ws natStr_ws i32_intStr u32_natStr fmtFixed_ne
  fmtF64_chars fmtF64_ne words_replicate)
open Verif.Rinex.Props (two_digits two_ws)

variable {T : Type}

/-! ### Rows -/

theorem cell_length {vals : Map Str F64} {ty : Str} (h : ∀ v, get vals ty = some v → InColumns v) : (cellText vals ty).length = 16 := by
  unfold cellText
  cases hv : get vals ty with
  | none => simp
  | some v =>
    have hc := h v hv
    have : (fmtF64 3 v).length ≤ 14 := by
      cases v with
      | num q =>
        show (fmtFixed 3 q).length ≤ 14
        by_cases hq : q < 0
        · have := fmtFixed_length (p := 3) (w := 8) (q := q) (by rw [abs_of_neg hq]; norm_num; linarith [hc.1])
          rw [if_pos hq] at this
          exact this
        · have := fmtFixed_length (p := 3) (w := 9) (q := q) (by rw [abs_of_nonneg (not_lt.mp hq)]; norm_num; linarith [hc.2])
          rw [if_neg hq] at this
          exact this
      | inf b => cases b <;> decide
      | nan => decide
    simp only [List.length_append, padLeft_length, List.length_cons, List.length_nil]
    omega

theorem cell_ascii (vals : Map Str F64) (ty : Str) : isAscii (cellText vals ty) := by
  unfold cellText
  cases get vals ty with
  | none => exact isAscii_replicate _ _ (by decide)
  | some v =>
    rw [isAscii_append]
    exact ⟨padLeft_ascii (fun c hc => (fmtF64_chars 3 v c hc).1) _ (by decide) _, (by decide : ∀ c ∈ [' ', ' '], c.toNat < 128)⟩

/-- The values read back, code by code. -/
def readVals (vals : Map Str F64) (ts : List Str) (m : Map Str F64) : Map Str F64 :=
  ts.foldl (fun m ty => match get vals ty with | some v => insert m ty (back 3 v) | none => m) m

theorem readVals_get (vals : Map Str F64) (ts : List Str) : ∀ (m : Map Str F64) (code : Str),
    get (readVals vals ts m) code = if code ∈ ts then ((get vals code).map (back 3)).or (get m code) else get m code := by
  induction ts with
  | nil => intro m code; simp [readVals]
  | cons t ts ih =>
    intro m code
    have e : readVals vals (t :: ts) m = readVals vals ts (match get vals t with | some v => insert m t (back 3 v) | none => m) := rfl
    rw [e, ih]
    cases hv : get vals t with
    | none =>
      dsimp only
      by_cases h1 : code ∈ ts
      · simp [h1]
      · by_cases h2 : code = t
        · subst h2; simp [hv, h1]
        · simp [h1, h2]
    | some v =>
      dsimp only
      rw [get_insert]
      by_cases h2 : code = t
      · subst h2
        by_cases h1 : code ∈ ts <;> simp [hv, h1]
      · by_cases h1 : code ∈ ts <;> simp [h1, h2]

theorem slice_full {p a b : Str} (h : isAscii (p ++ (a ++ b))) {i : Nat} (hi : p.length = i) (ha : a.length = 14) :
    slice (p ++ (a ++ b)) i (min (i + 14) (blen (p ++ (a ++ b)))) = some a := by
  have : min (i + 14) (blen (p ++ (a ++ b))) = i + 14 := by
    rw [blen_ascii h]; simp only [List.length_append]; omega
  rw [this]
  exact slice_mid h hi (by omega)

/-- What is left of the row from column `16 i` on. -/
def Left (payload : Str) (i : Nat) (s : Str) : Prop :=
  (∃ p, p.length = 16 * i ∧ payload = p ++ s) ∨ (payload.length ≤ 16 * i ∧ s = [])

theorem blank_cells {vals : Map Str F64} {ts : List Str} (h : trimEnd (ts.flatMap (cellText vals)) = []) (m : Map Str F64) : readVals vals ts m = m := by
  induction ts generalizing m with
  | nil => rfl
  | cons t ts ih =>
    rw [trimEnd_nil] at h
    have hc : ∀ c ∈ cellText vals t, isWs c = true := fun c hc => h c (by simp [hc])
    have e : readVals vals (t :: ts) m = readVals vals ts (match get vals t with | some v => insert m t (back 3 v) | none => m) := rfl
    rw [e]
    cases hv : get vals t with
    | none => exact ih (trimEnd_nil.mpr (fun c hc => h c (by rw [List.flatMap_cons]; exact List.mem_append_right _ hc))) m
    | some v =>
      exfalso
      have hne := fmtF64_ne 3 v
      cases hf : fmtF64 3 v with
      | nil => exact hne hf
      | cons c r =>
        have h1 := (fmtF64_chars 3 v c (by rw [hf]; simp)).2
        have h2 := hc c (by unfold cellText; rw [hv]; simp [padLeft, hf])
        rw [h1] at h2
        cases h2

theorem cells_read {vals : Map Str F64} {payload : Str} (hp : isAscii payload) (ts : List Str) :
    ∀ (i : Nat) (m : Map Str F64), (∀ t ∈ ts, ∀ v, get vals t = some v → InColumns v) → Left payload i (trimEnd (ts.flatMap (cellText vals))) →
      readCells payload i ts m = .ok (readVals vals ts m) := by
  induction ts with
  | nil => intro i m _ _; rfl
  | cons t ts ih =>
    intro i m hv hl
    have hts : ∀ t ∈ ts, ∀ v, get vals t = some v → InColumns v := fun t' ht' => hv t' (by simp [ht'])
    by_cases hend : blen payload ≤ i * 16
    · have hb : trimEnd ((t :: ts).flatMap (cellText vals)) = [] := by
        rcases hl with ⟨p, h1, h2⟩ | ⟨_, h2⟩
        · rw [blen_ascii hp, h2, List.length_append] at hend
          exact List.length_eq_zero_iff.mp (by omega)
        · exact h2
      rw [blank_cells hb, readCells, if_pos hend]
    · rcases hl with ⟨p, h1, h2⟩ | ⟨h1, _⟩
      swap
      · rw [blen_ascii hp] at hend; omega
      have hlen := cell_length (hv t (by simp))
      have hi : p.length = i * 16 := by omega
      have hstep : readVals vals (t :: ts) m = readVals vals ts (match get vals t with | some v => insert m t (back 3 v) | none => m) := rfl
      rw [hstep, readCells, if_neg hend]
      rw [List.flatMap_cons] at h2
      cases hg : get vals t with
      | none =>
        dsimp only
        have hcell : cellText vals t = List.replicate 14 ' ' ++ [' ', ' '] := by unfold cellText; rw [hg]; rfl
        have hne : trimEnd (ts.flatMap (cellText vals)) ≠ [] := by
          intro h0
          have : trimEnd (cellText vals t ++ ts.flatMap (cellText vals)) = [] := by
            rw [trimEnd_nil] at h0 ⊢
            intro c hc
            rcases List.mem_append.mp hc with hc | hc
            · rw [hcell] at hc
              exact (by decide : ∀ c ∈ List.replicate 14 ' ' ++ [' ', ' '], isWs c = true) c hc
            · exact h0 c hc
          rw [this, List.append_nil] at h2
          rw [blen_ascii hp, h2] at hend
          omega
        rw [trimEnd_keep hne, hcell] at h2
        have hs : slice payload (i * 16) (min (i * 16 + 14) (blen payload)) = some (List.replicate 14 ' ') := by
          have := slice_full (p := p) (a := List.replicate 14 ' ') (b := [' ', ' '] ++ trimEnd (ts.flatMap (cellText vals))) (i := i * 16)
            (by rw [← List.append_assoc (List.replicate 14 ' '), ← h2]; exact hp) hi (by simp)
          rw [← List.append_assoc (List.replicate 14 ' '), ← h2] at this
          exact this
        rw [hs]
        have hpar : parseFloat (trim (List.replicate 14 ' ')) = none := by decide
        simp only [Res.orPanic, Res.bind, hpar]
        refine ih (i + 1) m hts (Or.inl ⟨p ++ (List.replicate 14 ' ' ++ [' ', ' ']), ?_, by rw [h2]; simp⟩)
        simp only [List.length_append, List.length_replicate, List.length_cons, List.length_nil]
        omega
      | some v =>
        dsimp only
        have hcell : cellText vals t = padLeft ' ' 14 (fmtF64 3 v) ++ [' ', ' '] := by unfold cellText; rw [hg]
        have h14 : (padLeft ' ' 14 (fmtF64 3 v)).length = 14 := by rw [hcell] at hlen; simp at hlen ⊢; omega
        have htight : Tight (fmtF64 3 v) := tight_of_all (fun c hc => (fmtF64_chars 3 v c hc).2)
        have hpar : parseFloat (trim (padLeft ' ' 14 (fmtF64 3 v))) = some (back 3 v) := by rw [trim_padLeft htight, parse_back]
        by_cases hr : trimEnd (ts.flatMap (cellText vals)) = []
        · have hlast : trimEnd (cellText vals t ++ ts.flatMap (cellText vals)) = padLeft ' ' 14 (fmtF64 3 v) := by
            rw [trimEnd_ws (trimEnd_nil.mp hr), hcell, trimEnd_ws (by decide : ∀ c ∈ [' ', ' '], isWs c = true)]
            unfold padLeft
            have := trimEnd_word (s := fmtF64 3 v) (t := []) (fmtF64_ne 3 v) (fun c hc => (fmtF64_chars 3 v c hc).2)
            rw [List.append_nil] at this
            have hz : trimEnd ([] : Str) = [] := rfl
            rw [hz, List.append_nil] at this
            rw [trimEnd_keep (by rw [this]; exact fmtF64_ne 3 v), this]
          rw [hlast] at h2
          have hs : slice payload (i * 16) (min (i * 16 + 14) (blen payload)) = some (padLeft ' ' 14 (fmtF64 3 v)) := by
            have := slice_full (p := p) (a := padLeft ' ' 14 (fmtF64 3 v)) (b := []) (i := i * 16) (by rw [List.append_nil, ← h2]; exact hp) hi h14
            rw [List.append_nil, ← h2] at this
            exact this
          rw [hs]
          simp only [Res.orPanic, Res.bind, hpar]
          refine ih (i + 1) _ hts (Or.inr ⟨?_, hr⟩)
          rw [h2, List.length_append, h14]
          omega
        · rw [trimEnd_keep hr, hcell] at h2
          have hs : slice payload (i * 16) (min (i * 16 + 14) (blen payload)) = some (padLeft ' ' 14 (fmtF64 3 v)) := by
            have := slice_full (p := p) (a := padLeft ' ' 14 (fmtF64 3 v)) (b := [' ', ' '] ++ trimEnd (ts.flatMap (cellText vals))) (i := i * 16)
              (by rw [← List.append_assoc (padLeft ' ' 14 (fmtF64 3 v)), ← h2]; exact hp) hi h14
            rw [← List.append_assoc (padLeft ' ' 14 (fmtF64 3 v)), ← h2] at this
            exact this
          rw [hs]
          simp only [Res.orPanic, Res.bind, hpar]
          refine ih (i + 1) _ hts (Or.inl ⟨p ++ (padLeft ' ' 14 (fmtF64 3 v) ++ [' ', ' ']), ?_, by rw [h2]; simp⟩)
          simp only [List.length_append, h14, List.length_cons, List.length_nil]
          omega

theorem declared_eq {sat : Str} (h : Sat sat) (types : Map Char (List Str)) : (get types (sat.head?.getD ' ')).getD [] = declared types sat := by
  cases sat with
  | nil => exact absurd h.1 (by simp)
  | cons c s => rfl

theorem trimEnd_ascii {s : Str} (h : isAscii s) : isAscii (trimEnd s) := by
  intro c hc
  unfold trimEnd at hc
  exact h c (List.mem_reverse.mp ((List.dropWhile_sublist _).subset (List.mem_reverse.mp hc)))

theorem row_eq {sat : Str} (h : Sat sat) (types : Map Char (List Str)) (vals : Map Str F64) :
    rowText types vals sat = sat ++ trimEnd ((declared types sat).flatMap (cellText vals)) := by
  unfold rowText
  rw [declared_eq h]
  have : padRight 3 sat = sat := by unfold padRight; rw [h.1]; simp
  rw [this, trimEnd_word (by intro h0; rw [h0] at h; exact absurd h.1 (by simp)) (fun c hc => (h.2 c hc).2)]

/-- One row read back. -/
theorem row_read {sat : Str} (h : Sat sat) {types types' : Map Char (List Str)} (ht : ∀ s, get types' s = get types s) {vals : Map Str F64}
    (hv : ∀ t ∈ declared types sat, ∀ v, get vals t = some v → InColumns v) (sats : Map Str (Map Str F64)) :
    satLine types' sats (rowText types vals sat ++ ['\n']) = .ok (insert sats sat (readVals vals (declared types sat) [])) := by
  have hasc : isAscii (trimEnd ((declared types sat).flatMap (cellText vals))) := by
    apply trimEnd_ascii
    intro c hc
    obtain ⟨t, _, hc⟩ := List.mem_flatMap.mp hc
    exact cell_ascii vals t c hc
  have hrow : trimEnd (rowText types vals sat ++ ['\n']) = rowText types vals sat := by
    rw [trimEnd_ws (by intro c hc; rw [List.mem_singleton] at hc; subst hc; decide)]
    unfold rowText
    exact trimEnd_idem _
  have hb : blen sat = 3 := by rw [blen_ascii (fun c hc => (h.2 c hc).1), h.1]
  unfold satLine
  dsimp only
  rw [hrow, row_eq h, if_neg (by rw [blen_append]; omega)]
  rw [show takeB _ 3 = _ from hb ▸ Verif.Rinex.Props.takeB_append _ _, show dropB _ 3 = _ from hb ▸ Verif.Sp3.Props.dropB_append _ _]
  simp only [Res.orPanic, Res.bind]
  have hd : (get types' (sat.head?.getD ' ')).getD [] = declared types sat := by rw [ht, declared_eq h]
  rw [hd, cells_read hasc _ 0 [] hv (Or.inl ⟨[], rfl, rfl⟩)]

end Verif.Obs.Props
