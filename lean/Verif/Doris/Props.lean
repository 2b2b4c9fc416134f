import Verif.Doris.Model
import Verif.Crd.Props
import Verif.Sp3.Write
import Verif.Calendar.Lemmas
import Mathlib.Data.List.TakeWhile

/-
Claims C143 (DORIS observation files) and C144 (vgosDB side-car).
-/
namespace Verif.Doris.Props
open Verif.Text Verif.Sp3 Verif.Sp3.Props Verif.Doris Verif.Igs.Props Verif.Crd.Props

/-! ### What the lines of a DORIS file say -/

/-- The label of a header line: what stands after the sixtieth column. -/
def label (l : Str) : Option Str := if 61 ≤ l.length then some (trim (l.drop 60)) else none

/-- Columns `a` to `b` of the header lines with a label. -/
def columns (name : String) (a b : Nat) (l : Str) : Option Str :=
  if label l = some name.toList then some (trim ((l.take b).drop a)) else none

def isEnd (l : Str) : Bool := label l = some "END OF HEADER".toList

/-- The header: the lines before the first one with the label of the end; the body: the lines after it. -/
def headOf (ls : List Str) : List Str := ls.takeWhile (fun l => !isEnd l)
def bodyOf (ls : List Str) : List Str := (ls.dropWhile (fun l => !isEnd l)).drop 1

/-- An epoch line: `>` and at least six words. -/
def stamp (l : Str) : Option F64 :=
  if l.head? = some '>' then
    match words l.tail with
    | y :: mo :: d :: h :: mi :: s :: _ => dateToMjd (intOr0 y) (natOr0 mo) (natOr0 d) (natOr0 h) (natOr0 mi) (numOr0 s)
    | _ => none
  else none

/-- The epoch in force after some lines: that of the last epoch line. -/
def epochAt (pre : List Str) : Option F64 := pre.reverse.findSome? stamp

/-- A record: a line of at least three columns beginning with `D`, after an epoch line. -/
def record (p : List Str × Str) : Option Record :=
  if 3 ≤ p.2.length ∧ p.2.head? = some 'D' then (epochAt p.1).map (fun t => ⟨t, p.2.take 3, trim (p.2.drop 3)⟩) else none

/-- A line of the body that is neither empty nor an epoch line nor a record with measurements. -/
def unused (p : List Str × Str) : Bool :=
  p.2 ≠ [] ∧ p.2.head? ≠ some '>' ∧ ∀ r, record p = some r → r.raw = []

/-- Every year fits into the arithmetic. -/
def YearOk (l : Str) : Prop := ∀ rest, l = '>' :: rest → ∀ w ∈ (words rest).head?, i32 w ≠ some (-2 ^ 31)

/-! ### Lines -/

theorem chop_line {l : Str} (h : LineOk l) : chop (l ++ ['\n']) = l := by
  unfold chop
  rw [List.reverse_append, List.reverse_singleton, List.singleton_append, List.dropWhile_cons_of_pos (by decide)]
  rcases List.eq_nil_or_concat l with rfl | ⟨a, c, rfl⟩
  · rfl
  · rw [List.concat_eq_append] at h ⊢
    have h1 : c ≠ '\n' := fun hc => h.1 (by rw [hc]; simp)
    have h2 : c ≠ '\r' := fun hc => h.2 (by rw [hc]; simp)
    rw [List.reverse_append, List.reverse_singleton, List.singleton_append, List.dropWhile_cons_of_neg (by simp [h1, h2]), List.reverse_cons, List.reverse_reverse]

theorem dorisLine_eq {l : Str} (h : LineOk l) (st : St) : dorisLine st (l ++ ['\n']) =
    if st.inHeader then (if blen l < 61 then some st else headerLine st l) else bodyLine st l := by
  unfold dorisLine
  dsimp only
  rw [chop_line h]

theorem ascii_drop {s : Str} (h : isAscii s) (n : Nat) : isAscii (s.drop n) := fun c hc => h c (List.mem_of_mem_drop hc)
theorem ascii_take {s : Str} (h : isAscii s) (n : Nat) : isAscii (s.take n) := fun c hc => h c (List.mem_of_mem_take hc)

theorem columns_same {l : Str} {name : String} (h : label l = some name.toList) (a b : Nat) : columns name a b l = some (trim ((l.take b).drop a)) := if_pos h
theorem columns_other {l : Str} {name : String} (h : label l ≠ some name.toList) (a b : Nat) : columns name a b l = none := if_neg h

/-- One line of the header. -/
def after (hd : Header) (l : Str) : Header :=
  ⟨(columns "RINEX VERSION / TYPE" 0 9 l).getD hd.version, (columns "PGM / RUN BY / DATE" 0 20 l).getD hd.program,
    (columns "PGM / RUN BY / DATE" 20 40 l).getD hd.agency, (columns "MARKER NAME" 0 60 l).getD hd.marker,
    (columns "ANT # / TYPE" 20 60 l).getD hd.antenna, (columns "REC # / TYPE / VERS" 20 40 l).getD hd.receiver⟩

theorem header_one {l : Str} (ha : isAscii l) (hok : LineOk l) (st : St) (hi : st.inHeader = true) :
    dorisLine st (l ++ ['\n']) = some { st with
      out.header := after st.out.header l
      inHeader := !isEnd l } := by
  rw [dorisLine_eq hok, if_pos hi, blen_ascii ha]
  obtain ⟨⟨hd, rs, n⟩, ih, ep⟩ := st
  dsimp only at hi ⊢
  subst hi
  by_cases h61 : l.length < 61
  · have hl : label l = none := if_neg (by omega)
    have hc : ∀ (nm : String) a b, columns nm a b l = none := fun nm a b => columns_other (by rw [hl]; simp) a b
    have he : isEnd l = false := by unfold isEnd; rw [hl]; rfl
    rw [if_pos h61]
    unfold after
    simp only [hc, Option.getD_none, he, Bool.not_false]
  · have hl : label l = some (trim (l.drop 60)) := if_pos (by omega)
    have hd60 : isAscii (l.take 60) := ascii_take ha 60
    have hlen : (l.take 60).length = 60 := by rw [List.length_take]; omega
    have t9 : (l.take 60).take 9 = (l.take 9).drop 0 := by rw [List.take_take, List.drop_zero]; rfl
    have t20 : (l.take 60).take 20 = (l.take 20).drop 0 := by rw [List.take_take, List.drop_zero]; rfl
    have t40 : ((l.take 60).drop 20).take (40 - 20) = (l.take 40).drop 20 := by
      rw [List.take_drop, List.take_take]; rfl
    have t60 : l.take 60 = (l.take 60).drop 0 := rfl
    rw [if_neg h61]
    unfold headerLine
    rw [takeB_ascii ha, if_pos (by omega), dropB_ascii ha, if_pos (by omega)]
    simp only [Option.bind_some]
    have u9 : takeB (l.take 60) 9 = some ((l.take 9).drop 0) := by rw [takeB_ascii hd60, if_pos (by omega), t9]
    have u20 : takeB (l.take 60) 20 = some ((l.take 20).drop 0) := by rw [takeB_ascii hd60, if_pos (by omega), t20]
    have u40 : slice (l.take 60) 20 40 = some ((l.take 40).drop 20) := by rw [slice_ascii hd60 (by omega) (by omega), t40]
    have u60 : dropB (l.take 60) 20 = some ((l.take 60).drop 20) := by rw [dropB_ascii hd60, if_pos (by omega)]
    rw [u9, u20, u40, u60]
    simp only [Option.map_some, Option.bind_some]
    generalize trim (l.drop 60) = lab at hl
    have hne : ∀ {nm : String}, lab ≠ nm.toList → label l ≠ some nm.toList := fun h e => h (by rw [hl] at e; exact Option.some.inj e)
    have key : ∀ {nm nm' : String}, lab = nm.toList → nm.toList ≠ nm'.toList → label l ≠ some nm'.toList := fun h h' e => by
      rw [hl, h] at e; exact h' (Option.some.inj e)
    unfold after isEnd
    by_cases c1 : lab = "RINEX VERSION / TYPE".toList
    · rw [if_pos c1, columns_same (by rw [hl, c1]), columns_other (key c1 (by decide)), columns_other (key c1 (by decide)), columns_other (key c1 (by decide)),
        columns_other (key c1 (by decide)), columns_other (key c1 (by decide)), decide_eq_false (key c1 (by decide))]
      rfl
    rw [if_neg c1, columns_other (hne c1)]
    by_cases c2 : lab = "PGM / RUN BY / DATE".toList
    · rw [if_pos c2, columns_same (by rw [hl, c2]), columns_same (by rw [hl, c2]), columns_other (key c2 (by decide)), columns_other (key c2 (by decide)),
        columns_other (key c2 (by decide)), decide_eq_false (key c2 (by decide))]
      rfl
    rw [if_neg c2, columns_other (hne c2), columns_other (hne c2)]
    by_cases c3 : lab = "MARKER NAME".toList
    · rw [if_pos c3, columns_same (by rw [hl, c3]), columns_other (key c3 (by decide)),
        columns_other (key c3 (by decide)), decide_eq_false (key c3 (by decide))]
      rfl
    rw [if_neg c3, columns_other (hne c3)]
    by_cases c4 : lab = "ANT # / TYPE".toList
    · rw [if_pos c4, columns_same (by rw [hl, c4]), columns_other (key c4 (by decide)), decide_eq_false (key c4 (by decide))]
      rfl
    rw [if_neg c4, columns_other (hne c4)]
    by_cases c5 : lab = "REC # / TYPE / VERS".toList
    · rw [if_pos c5, columns_same (by rw [hl, c5]), decide_eq_false (key c5 (by decide))]
      rfl
    rw [if_neg c5, columns_other (hne c5)]
    by_cases c6 : lab = "END OF HEADER".toList
    · rw [if_pos c6, decide_eq_true (by rw [hl, c6])]
      rfl
    rw [if_neg c6, decide_eq_false (hne c6)]
    rfl

/-- The header as the lines say it, beginning with `hd`. -/
def headerFrom (hd : Header) (ls : List Str) : Header :=
  ⟨lastSaid (columns "RINEX VERSION / TYPE" 0 9) hd.version ls, lastSaid (columns "PGM / RUN BY / DATE" 0 20) hd.program ls,
    lastSaid (columns "PGM / RUN BY / DATE" 20 40) hd.agency ls, lastSaid (columns "MARKER NAME" 0 60) hd.marker ls,
    lastSaid (columns "ANT # / TYPE" 20 60) hd.antenna ls, lastSaid (columns "REC # / TYPE / VERS" 20 40) hd.receiver ls⟩

theorem headerFrom_cons (hd : Header) (l : Str) (ls : List Str) : headerFrom hd (l :: ls) = headerFrom (after hd l) ls := by
  unfold headerFrom
  simp only [lastSaid_cons]
  rfl

theorem after_end {l : Str} (h : isEnd l = true) (hd : Header) : after hd l = hd := by
  unfold isEnd at h
  rw [decide_eq_true_eq] at h
  have hc : ∀ {nm : String}, "END OF HEADER".toList ≠ nm.toList → ∀ a b, columns nm a b l = none := fun h' a b =>
    columns_other (by rw [h]; exact fun e => h' (Option.some.inj e)) a b
  unfold after
  rw [hc (by decide), hc (by decide), hc (by decide), hc (by decide), hc (by decide), hc (by decide)]
  rfl

theorem header_loop (ls : List Str) : ∀ (st : St), st.inHeader = true → (∀ l ∈ ls, isAscii l ∧ LineOk l) →
    dorisLoop st (ls.map (· ++ ['\n'])) =
      dorisLoop { st with
        out.header := headerFrom st.out.header (headOf ls)
        inHeader := !ls.any isEnd } ((bodyOf ls).map (· ++ ['\n'])) := by
  induction ls with
  | nil => intro st hi _; obtain ⟨⟨hd, rs, n⟩, ih, ep⟩ := st; dsimp only at hi; subst hi; rfl
  | cons l ls ih =>
    intro st hi h
    rw [List.map_cons, dorisLoop, header_one (h l (by simp)).1 (h l (by simp)).2 st hi, Option.bind_some]
    cases he : isEnd l with
    | true =>
      have e1 : headOf (l :: ls) = [] := by unfold headOf; rw [List.takeWhile_cons_of_neg (by simp [he])]
      have e2 : bodyOf (l :: ls) = ls := by unfold bodyOf; rw [List.dropWhile_cons_of_neg (by simp [he])]; rfl
      rw [e1, e2, after_end he, List.any_cons, he]
      rfl
    | false =>
      have e1 : headOf (l :: ls) = l :: headOf ls := by unfold headOf; rw [List.takeWhile_cons_of_pos (by simp [he])]
      have e2 : bodyOf (l :: ls) = bodyOf ls := by unfold bodyOf; rw [List.dropWhile_cons_of_pos (by simp [he])]
      rw [ih _ rfl (fun x hx => h x (by simp [hx])), e1, e2, headerFrom_cons, List.any_cons, he, Bool.false_or]

/-! ### The body -/

theorem dateToMjd_some {y : Int} (h : y ≠ -2 ^ 31) (mo d hh mi : Nat) (s : F64) : ∃ t, dateToMjd y mo d hh mi s = some t := by
  unfold dateToMjd
  rw [if_neg (fun e => h e.2)]
  exact ⟨_, rfl⟩

theorem epochAt_snoc (pre : List Str) (l : Str) : epochAt (pre ++ [l]) = (stamp l).or (epochAt pre) := by
  unfold epochAt
  rw [List.reverse_append, List.reverse_singleton, List.singleton_append, List.findSome?_cons]
  cases stamp l <;> rfl

structure Inv (pre : List Str) (hd : Header) (st : St) : Prop where
  header : st.out.header = hd
  inHeader : st.inHeader = false
  epoch : st.epoch = epochAt pre
  records : st.out.records = (splits pre).filterMap record
  unsupported : st.out.unsupported = ((splits pre).filter unused).length

theorem inv_step {pre : List Str} {hd : Header} {st : St} (h : Inv pre hd st) {l : Str} {r : Option Record} (hr : record (pre, l) = r) {u : Bool} (hu : unused (pre, l) = u)
    {e : Option F64} (he : (stamp l).or (epochAt pre) = e) :
    Inv (pre ++ [l]) hd ⟨⟨st.out.header, st.out.records ++ r.toList, st.out.unsupported + (if u then 1 else 0)⟩, false, e⟩ := by
  refine ⟨h.header, rfl, ?_, ?_, ?_⟩
  · rw [epochAt_snoc, he]
  · rw [splits_snoc, List.filterMap_append, ← h.records]
    congr 1
    rw [List.filterMap_cons, List.filterMap_nil, hr]
    cases r <;> rfl
  · rw [splits_snoc, List.filter_append, List.length_append, ← h.unsupported, List.filter_cons, hu, List.filter_nil]
    cases u <;> rfl

theorem record_epoch {pre : List Str} {rest : Str} : record (pre, '>' :: rest) = none := by
  unfold record
  rw [if_neg]
  rintro ⟨_, h⟩
  simp at h

theorem body_one {pre : List Str} {hd : Header} {st : St} (h : Inv pre hd st) {l : Str} (ha : isAscii l) (hok : LineOk l) (hy : YearOk l) :
    ∃ st', dorisLine st (l ++ ['\n']) = some st' ∧ Inv (pre ++ [l]) hd st' := by
  rw [dorisLine_eq hok, h.inHeader, if_neg (by decide)]
  unfold bodyLine
  obtain ⟨⟨hd0, rs, n⟩, ih, ep⟩ := st
  have hih : ih = false := h.inHeader
  subst hih
  cases l with
  | nil =>
    refine ⟨_, rfl, ?_⟩
    have := inv_step h (l := []) (r := none) (u := false) (by unfold record; simp) (by simp [unused]) (e := ep) (by rw [← h.epoch]; rfl)
    simpa using this
  | cons c rest =>
    by_cases hc : c = '>'
    · subst hc
      dsimp only
      rw [if_pos rfl]
      have hu : unused (pre, '>' :: rest) = false := by simp [unused]
      unfold epochLine
      split
      · rename_i y mo d hh mi s tl hw
        have hyr : intOr0 y ≠ -2 ^ 31 := by
          have := hy rest rfl y (by rw [hw]; rfl)
          unfold intOr0
          cases hp : i32 y with
          | none => decide
          | some v => rw [hp] at this; intro e; exact this (by rw [← e]; rfl)
        obtain ⟨t, ht⟩ := dateToMjd_some hyr (natOr0 mo) (natOr0 d) (natOr0 hh) (natOr0 mi) (numOr0 s)
        have hst : stamp ('>' :: rest) = some t := by unfold stamp; rw [if_pos (List.head?_cons), List.tail_cons, hw]; exact ht
        rw [ht]
        refine ⟨_, rfl, ?_⟩
        have := inv_step h record_epoch hu (e := some t) (by rw [hst]; rfl)
        simpa using this
      · rename_i hw
        have hst : stamp ('>' :: rest) = none := by
          unfold stamp
          rw [if_pos (List.head?_cons), List.tail_cons]
          split
          · rename_i y mo d hh mi s tl hw'
            exact absurd hw' (hw y mo d hh mi s tl)
          · rfl
        refine ⟨_, rfl, ?_⟩
        have := inv_step h record_epoch hu (e := ep) (by rw [hst, ← h.epoch]; rfl)
        simpa using this
    · dsimp only
      rw [if_neg hc]
      have hst : stamp (c :: rest) = none := by
        unfold stamp
        exact if_neg (by simp [hc])
      have he : (stamp (c :: rest)).or (epochAt pre) = ep := by rw [hst, ← h.epoch]; rfl
      unfold dataLine
      rw [blen_ascii ha]
      by_cases hd3 : 3 ≤ (c :: rest).length ∧ (c :: rest).head? = some 'D'
      · rw [if_pos hd3, takeB_ascii ha, if_pos hd3.1]
        simp only [Option.bind_some]
        have hep : ep = epochAt pre := h.epoch
        cases ep with
        | none =>
          have hr : record (pre, c :: rest) = none := by unfold record; rw [if_pos hd3, ← hep]; rfl
          refine ⟨_, rfl, ?_⟩
          have := inv_step h hr (u := true) (by simp only [unused, hr]; simp [hc]) he
          simpa using this
        | some t =>
          have hraw : (if 3 < (c :: rest).length then (dropB (c :: rest) 3).map trim else some []) = some (trim ((c :: rest).drop 3)) := by
            by_cases h4 : 3 < (c :: rest).length
            · rw [if_pos h4, dropB_ascii ha, if_pos (by omega)]; rfl
            · rw [if_neg h4, List.drop_eq_nil_of_le (by omega)]; rfl
          have hr : record (pre, c :: rest) = some ⟨t, (c :: rest).take 3, trim ((c :: rest).drop 3)⟩ := by unfold record; rw [if_pos hd3, ← hep]; rfl
          dsimp only
          rw [hraw]
          refine ⟨_, rfl, ?_⟩
          have := inv_step h hr (u := decide (trim ((c :: rest).drop 3) = [])) (by
            simp only [unused, hr]
            simp [hc]) he
          convert this using 2
          · dsimp only
            congr 1
            by_cases h0 : trim ((c :: rest).drop 3) = []
            · rw [if_pos h0, if_pos (by simpa using h0)]
            · rw [if_neg h0, if_neg (by simpa using h0)]; rfl
      · rw [if_neg hd3]
        have hr : record (pre, c :: rest) = none := by unfold record; exact if_neg hd3
        refine ⟨_, rfl, ?_⟩
        have := inv_step h hr (u := true) (by simp only [unused, hr]; simp [hc]) he
        simpa using this

theorem body_loop (ls : List Str) : ∀ (pre : List Str) (hd : Header) (st : St), Inv pre hd st → (∀ l ∈ ls, isAscii l ∧ LineOk l ∧ YearOk l) →
    ∃ st', dorisLoop st (ls.map (· ++ ['\n'])) = some st' ∧ Inv (pre ++ ls) hd st' := by
  induction ls with
  | nil => intro pre hd st h _; exact ⟨st, rfl, by rw [List.append_nil]; exact h⟩
  | cons l ls ih =>
    intro pre hd st h hl
    obtain ⟨h1, h2, h3⟩ := hl l (by simp)
    obtain ⟨st1, e1, i1⟩ := body_one h h1 h2 h3
    obtain ⟨st2, e2, i2⟩ := ih (pre ++ [l]) hd st1 i1 (fun x hx => hl x (by simp [hx]))
    refine ⟨st2, ?_, ?_⟩
    · rw [List.map_cons, dorisLoop, e1]; exact e2
    · simpa using i2

/-- C143. Every ASCII file is read: the header from its columns, the last line of a label deciding; a record for every line beginning with
`D` after an epoch line, in file order and with the epoch of the last epoch line; and the other lines counted. -/
theorem doris_reads {ls : List Str} (h : ∀ l ∈ ls, isAscii l ∧ LineOk l ∧ YearOk l) : parseDoris (unlines ls) =
    some ⟨headerFrom ⟨[], [], [], [], [], []⟩ (headOf ls), (splits (bodyOf ls)).filterMap record, ((splits (bodyOf ls)).filter unused).length⟩ := by
  unfold parseDoris
  rw [rawLines_unlines (fun l hl => (h l hl).2.1.1), header_loop ls start rfl (fun l hl => ⟨(h l hl).1, (h l hl).2.1⟩)]
  by_cases he : ls.any isEnd = true
  · rw [he]
    obtain ⟨st', e, i⟩ := body_loop (bodyOf ls) [] (headerFrom ⟨[], [], [], [], [], []⟩ (headOf ls))
      ⟨⟨headerFrom ⟨[], [], [], [], [], []⟩ (headOf ls), [], 0⟩, false, none⟩ ⟨rfl, rfl, rfl, rfl, rfl⟩
      (fun l hl => h l ((List.dropWhile_sublist _).subset (List.mem_of_mem_drop hl)))
    show Option.map _ (dorisLoop ⟨⟨headerFrom ⟨[], [], [], [], [], []⟩ (headOf ls), [], 0⟩, false, none⟩ _) = _
    rw [e, Option.map_some, List.nil_append] at *
    rw [← i.records, ← i.unsupported, ← i.header]
  · have hb : bodyOf ls = [] := by
      unfold bodyOf
      rw [List.dropWhile_eq_nil_iff.mpr]
      · rfl
      · intro l hl
        simp only [List.any_eq_true, not_exists, not_and] at he
        simp [he l hl]
    rw [hb]
    rfl

theorem chop_return {l : Str} (h : LineOk l) : chop (l ++ ['\r'] ++ ['\n']) = chop (l ++ ['\n']) := by
  rw [chop_line h]
  unfold chop
  rw [List.reverse_append, List.reverse_singleton, List.singleton_append, List.dropWhile_cons_of_pos (by decide),
    List.reverse_append, List.reverse_singleton, List.singleton_append, List.dropWhile_cons_of_pos (by decide)]
  rcases List.eq_nil_or_concat l with rfl | ⟨a, c, rfl⟩
  · rfl
  · rw [List.concat_eq_append] at h ⊢
    have h1 : c ≠ '\n' := fun hc => h.1 (by rw [hc]; simp)
    have h2 : c ≠ '\r' := fun hc => h.2 (by rw [hc]; simp)
    rw [List.reverse_append, List.reverse_singleton, List.singleton_append, List.dropWhile_cons_of_neg (by simp [h1, h2]), List.reverse_cons, List.reverse_reverse]

/-- C143. A file whose lines end in carriage return and line feed is read as the same file with plain line ends. -/
theorem doris_crlf {ls : List Str} (h : ∀ l ∈ ls, LineOk l) : parseDoris (unlines (ls.map (· ++ ['\r']))) = parseDoris (unlines ls) := by
  unfold parseDoris
  rw [rawLines_unlines (fun l hl => (h l hl).1), rawLines_unlines (fun l hl => by
    obtain ⟨x, hx, rfl⟩ := List.mem_map.mp hl
    intro hc
    rcases List.mem_append.mp hc with hc | hc
    · exact (h x hx).1 hc
    · exact absurd hc (by decide))]
  congr 1
  generalize start = st
  induction ls generalizing st with
  | nil => rfl
  | cons l ls ih =>
    have e : dorisLine st (l ++ ['\r'] ++ ['\n']) = dorisLine st (l ++ ['\n']) := by
      unfold dorisLine
      rw [chop_return (h l (by simp))]
    simp only [List.map_cons, dorisLoop]
    rw [e]
    congr 1
    funext st'
    exact ih (fun x hx => h x (by simp [hx])) st'

/-! ### Epochs -/

theorem floor_div (n : Int) (k : Nat) : (⌊(n : ℚ) / k⌋ : Int) = n / k := Rat.floor_intCast_div_natCast n k

/-- The whole days of `date_to_mjd` on integers. -/
theorem mjd_days {y : Int} (hy : y ≠ -2 ^ 31) (mo d h mi : Nat) (q : ℚ) : dateToMjd y mo d h mi (.num q) =
    some (.num (((1461 * ((if mo ≤ 2 then y - 1 else y) + 4716)) / 4 + (306001 * ((if mo ≤ 2 then mo + 12 else mo : Nat) + 1)) / 10000 + d + 2 - (if mo ≤ 2 then y - 1 else y) / 100 +
      (if mo ≤ 2 then y - 1 else y) / 100 / 4 - 2401525 : Int) + (h + mi / 60 + q / 3600) / 24)) := by
  unfold dateToMjd
  rw [if_neg (fun e => hy e.2)]
  dsimp only
  have c1 : (if mo ≤ 2 then ((y - 1 : Int) : ℚ) else (y : ℚ)) = ((if mo ≤ 2 then y - 1 else y : Int) : ℚ) := by split <;> rfl
  have c2 : (if mo ≤ 2 then ((mo + 12 : Nat) : ℚ) else (mo : ℚ)) = ((if mo ≤ 2 then mo + 12 else mo : Nat) : ℚ) := by split <;> rfl
  rw [c1, c2]
  generalize (if mo ≤ 2 then y - 1 else y : Int) = yy
  generalize (if mo ≤ 2 then mo + 12 else mo : Nat) = mm
  have f1 : ⌊(36525 / 100 : ℚ) * ((yy : ℚ) + 4716)⌋ = (1461 * (yy + 4716)) / 4 := by
    rw [show (1461 * (yy + 4716)) / 4 = (1461 * (yy + 4716)) / ((4 : Nat) : Int) from rfl, ← floor_div (1461 * (yy + 4716)) 4]; congr 1; push_cast; ring
  have f2 : ⌊(306001 / 10000 : ℚ) * ((mm : ℚ) + 1)⌋ = (306001 * ((mm : Int) + 1)) / 10000 := by
    rw [show (306001 * ((mm : Int) + 1)) / 10000 = (306001 * ((mm : Int) + 1)) / ((10000 : Nat) : Int) from rfl, ← floor_div (306001 * ((mm : Int) + 1)) 10000]; congr 1; push_cast; ring
  have f3 : ⌊(yy : ℚ) / 100⌋ = yy / 100 := by rw [show yy / 100 = yy / ((100 : Nat) : Int) from rfl, ← floor_div yy 100]; norm_num
  have f4 : ⌊((yy / 100 : Int) : ℚ) / 4⌋ = yy / 100 / 4 := by rw [show yy / 100 / 4 = yy / 100 / ((4 : Nat) : Int) from rfl, ← floor_div (yy / 100) 4]; norm_num
  rw [f1, f2, f3, f4]
  congr 2
  push_cast
  ring

/-- C143. The epoch of a valid date is its Modified Julian Date: days since 17 November 1858 and the fraction of the day. -/
theorem mjd_correct {y mo d : Nat} (hv : Calendar.Valid y mo d) (h mi : Nat) (q : ℚ) :
    dateToMjd y mo d h mi (.num q) = some (.num ((Calendar.dayNumber y mo d : ℚ) - Calendar.dayNumber 1858 11 17 + (3600 * h + 60 * mi + q) / 86400)) := by
  rw [mjd_days (by omega), ← Int.cast_natCast (Calendar.dayNumber y mo d), ← Calendar.marchDay_correct hv]
  have h17 : (Calendar.dayNumber 1858 11 17 : ℚ) = ((2400001 : Int) : ℚ) := by
    have : Calendar.dayNumber 1858 11 17 = 2400001 := by decide +kernel
    rw [this]; norm_num
  have hk : ((1461 * ((if mo ≤ 2 then (y : Int) - 1 else y) + 4716)) / 4 + (306001 * ((if mo ≤ 2 then mo + 12 else mo : Nat) + 1)) / 10000 + d + 2 - (if mo ≤ 2 then (y : Int) - 1 else y) / 100 +
      (if mo ≤ 2 then (y : Int) - 1 else y) / 100 / 4 - 2401525 : Int) = Calendar.marchDay y mo d - 2400001 := by
    obtain ⟨h1, h2, _, _⟩ := hv
    unfold Calendar.marchDay
    dsimp only
    have a1 : ((y : Int) + 4800 - 1) / 4 = ((y : Int) - 1) / 4 + 1200 := by omega
    have a2 : ((y : Int) + 4800 - 1) / 100 = ((y : Int) - 1) / 100 + 48 := by omega
    have a3 : ((y : Int) + 4800 - 1) / 400 = ((y : Int) - 1) / 100 / 4 + 12 := by omega
    have b1 : ((y : Int) + 4800) / 4 = y / 4 + 1200 := by omega
    have b2 : ((y : Int) + 4800) / 100 = y / 100 + 48 := by omega
    have b3 : ((y : Int) + 4800) / 400 = y / 100 / 4 + 12 := by omega
    have e1 : (1461 * ((y : Int) - 1 + 4716)) / 4 = 365 * ((y : Int) - 1 + 4716) + ((y : Int) - 1) / 4 + 1179 := by omega
    have e2 : (1461 * ((y : Int) + 4716)) / 4 = 365 * ((y : Int) + 4716) + (y : Int) / 4 + 1179 := by omega
    obtain ⟨p1, g1⟩ : ∃ p, ((y : Int) - 1) / 4 = p := ⟨_, rfl⟩
    obtain ⟨p2, g2⟩ : ∃ p, ((y : Int) - 1) / 100 = p := ⟨_, rfl⟩
    obtain ⟨q1, g3⟩ : ∃ p, (y : Int) / 4 = p := ⟨_, rfl⟩
    obtain ⟨q2, g4⟩ : ∃ p, (y : Int) / 100 = p := ⟨_, rfl⟩
    interval_cases mo <;> norm_num <;> simp only [a1, a2, a3, b1, b2, b3, e1, e2, g1, g2, g3, g4] <;> ring
  rw [hk, h17]
  congr 2
  push_cast
  ring

/-! ### Findings -/

/-- A file with an empty header and some lines. -/
def file (ls : List String) : Option File :=
  parseDoris (unlines ((List.replicate 60 ' ' ++ "END OF HEADER".toList) :: ls.map String.toList))

/-- C143, finding. A record that goes on in a second line loses it: `current_sat` is never set. -/
theorem continuation_lost : (file ["> 1858 11 17 00 00 00.0", "D01 1 2 3 4 5", "    6 7"]).map (fun f => (f.records, f.unsupported)) =
    some ([⟨.num 0, "D01".toList, "1 2 3 4 5".toList⟩], 1) := by decide +kernel

/-- C143, finding. After an epoch line that is too short, records have the epoch before. -/
theorem stale_epoch : (file ["> 1858 11 17 00 00 00.0", "> 1858 11 18 00 00", "D01 1"]).map (·.records) = some [⟨.num 0, "D01".toList, "1".toList⟩] := by decide +kernel

/-- C143, finding. Fields that are not numbers count as zero, and month zero is the December before; dates that do not exist are read. -/
theorem bad_dates_read : (file ["> 1858 XX 17 00 00 00.0", "D01 1", "> 1858 11 31 25 00 00.0", "D01 1"]).map (fun f => f.records.map (·.mjd)) =
    some [.num (-335), .num (15 + 1 / 24)] := by decide +kernel

/-- C143, finding. A record without measurements is kept and also counted as not supported. -/
theorem empty_record_twice : (file ["> 1858 11 17 00 00 00.0", "D01"]).map (fun f => (f.records.length, f.unsupported)) = some (1, 1) := by decide +kernel

/-- C143, finding. Text that is not ASCII stops the program: a header line, and a record. -/
theorem doris_panics : parseDoris (List.replicate 59 'a' ++ "é MARKER NAME\n".toList) = none ∧ file ["> 1858 11 17 00 00 00.0", "D0é 1"] = none := by decide +kernel

/-! ### Claim C144 -/

/-- A line the side-car reader skips. -/
def Silent (l : Str) : Prop := trim l = [] ∨ (trim l).head? = some '#'

/-- A line `key = value`. -/
def Says (l k v : Str) : Prop := ¬ Silent l ∧ ∃ a, trim l = a ++ '=' :: v ∧ '=' ∉ a ∧ trim a = k

/-- The keys of the side-car. -/
def Known (k : Str) : Prop := k = "session_code".toList ∨ k = "start_epoch".toList ∨ k = "stations".toList

/-- The names in a list separated by commas. -/
def names (v : Str) : List Str := ((splitChar ',' v).map trim).filter (fun s => s ≠ [])

/-- The last value of a key. -/
inductive LastIs (k : Str) : List Str → Option Str → Prop
  | nil : LastIs k [] none
  | hit {ls l v o} : LastIs k ls o → Says l k v → LastIs k (ls ++ [l]) (some v)
  | miss {ls l o} : LastIs k ls o → (∀ v, ¬ Says l k v) → LastIs k (ls ++ [l]) o

/-- A good line. -/
def Good (l : Str) : Prop := Silent l ∨ ∃ k v, Says l k v ∧ Known k

structure VProduct (ls : List Str) (o : Vgos) : Prop where
  session : ∃ v, LastIs "session_code".toList ls v ∧ o.session = (v.map trim).getD []
  start : ∃ v, LastIs "start_epoch".toList ls v ∧ o.start = (v.map trim).getD []
  stations : ∃ v, LastIs "stations".toList ls v ∧ o.stations = (v.map names).getD []

theorem says_unique {l k v k' v' : Str} (h : Says l k v) (h' : Says l k' v') : k = k' ∧ v = v' := by
  obtain ⟨_, a, e1, n1, t1⟩ := h
  obtain ⟨_, b, e2, n2, t2⟩ := h'
  have f1 := find1_append n1 v
  have f2 := find1_append n2 v'
  rw [← e1] at f1
  rw [← e2] at f2
  rw [f1] at f2
  simp only [Option.some.injEq, Prod.mk.injEq] at f2
  obtain ⟨rfl, rfl⟩ := f2
  exact ⟨t1.symm.trans t2, rfl⟩

theorem find1_mem {c : Char} {s : Str} (h : c ∈ s) : find1 c s ≠ none := by
  induction s with
  | nil => cases h
  | cons x s ih =>
    rw [find1]
    split
    · simp
    · rename_i hx
      rcases List.mem_cons.mp h with e | e
      · exact absurd e.symm hx
      · simpa using ih e

theorem find1_split {c : Char} {s a b : Str} (h : find1 c s = some (a, b)) : s = a ++ c :: b ∧ c ∉ a := by
  induction s generalizing a with
  | nil => simp [find1] at h
  | cons x s ih =>
    rw [find1] at h
    split at h
    · rename_i hx
      injection h with h
      injection h with h1 h2
      subst h1 h2 hx
      simp
    · rename_i hx
      rw [Option.map_eq_some_iff] at h
      obtain ⟨⟨a', b'⟩, h1, h2⟩ := h
      injection h2 with h2 h3
      dsimp only at h2 h3
      subst h2
      subst h3
      obtain ⟨h4, h5⟩ := ih h1
      refine ⟨by rw [h4]; rfl, ?_⟩
      simp only [List.mem_cons, not_or]
      exact ⟨fun e => hx e.symm, h5⟩

/-- One line: skipped, used, or refused with its number. -/
theorem vgos_line (no : Nat) {pre : List Str} {o : Vgos} (hp : VProduct pre o) (l : Str) :
    (Good l ∧ ∃ o', vgosLine no o l = .ok o' ∧ VProduct (pre ++ [l]) o') ∨
    (¬ Good l ∧ ((vgosLine no o l = .err (.noEquals no) ∧ '=' ∉ trim l) ∨ ∃ k v, Says l k v ∧ ¬ Known k ∧ vgosLine no o l = .err (.unknown no k))) := by
  obtain ⟨⟨s1, l1, e1⟩, ⟨s2, l2, e2⟩, ⟨s3, l3, e3⟩⟩ := hp
  by_cases hs : Silent l
  · left
    refine ⟨Or.inl hs, o, ?_, ?_⟩
    · unfold vgosLine; dsimp only; exact if_pos hs
    · exact ⟨⟨s1, .miss l1 (fun v h => h.1 hs), e1⟩, ⟨s2, .miss l2 (fun v h => h.1 hs), e2⟩, ⟨s3, .miss l3 (fun v h => h.1 hs), e3⟩⟩
  · have hline : ∀ r, (match find1 '=' (trim l) with
        | none => (.err (.noEquals no) : Res VErr Vgos)
        | some (k, v) =>
          if trim k = "session_code".toList then .ok { o with session := trim v }
          else if trim k = "start_epoch".toList then .ok { o with start := trim v }
          else if trim k = "stations".toList then .ok { o with stations := ((splitChar ',' v).map trim).filter (fun s => s ≠ []) }
          else .err (.unknown no (trim k))) = r → vgosLine no o l = r := by
      intro r h
      unfold vgosLine
      dsimp only
      rw [if_neg (show ¬ (trim l = [] ∨ (trim l).head? = some '#') from hs)]
      exact h
    cases hf : find1 '=' (trim l) with
    | none =>
      right
      have hn : '=' ∉ trim l := by
        intro hm
        exact absurd hf (find1_mem hm)
      refine ⟨?_, Or.inl ⟨hline _ (by rw [hf]), hn⟩⟩
      rintro (h | ⟨k, v, ⟨_, a, e, _⟩, _⟩)
      · exact hs h
      · exact hn (by rw [e]; simp)
    | some kv =>
      obtain ⟨a, v⟩ := kv
      obtain ⟨e, hna⟩ := find1_split hf
      have hsay : Says l (trim a) v := ⟨hs, a, e, hna, rfl⟩
      have other : ∀ {k : Str}, trim a ≠ k → ∀ w, ¬ Says l k w := fun h w hw => h (says_unique hsay hw).1
      by_cases k1 : trim a = "session_code".toList
      · left
        refine ⟨Or.inr ⟨_, v, hsay, Or.inl k1⟩, _, hline _ (by rw [hf]; exact if_pos k1), ?_⟩
        exact ⟨⟨some v, .hit l1 (k1 ▸ hsay), rfl⟩, ⟨s2, .miss l2 (other (by rw [k1]; decide)), e2⟩, ⟨s3, .miss l3 (other (by rw [k1]; decide)), e3⟩⟩
      by_cases k2 : trim a = "start_epoch".toList
      · left
        refine ⟨Or.inr ⟨_, v, hsay, Or.inr (Or.inl k2)⟩, _, hline _ (by rw [hf]; dsimp only; rw [if_neg k1, if_pos k2]), ?_⟩
        exact ⟨⟨s1, .miss l1 (other k1), e1⟩, ⟨some v, .hit l2 (k2 ▸ hsay), rfl⟩, ⟨s3, .miss l3 (other (by rw [k2]; decide)), e3⟩⟩
      by_cases k3 : trim a = "stations".toList
      · left
        refine ⟨Or.inr ⟨_, v, hsay, Or.inr (Or.inr k3)⟩, _, hline _ (by rw [hf]; dsimp only; rw [if_neg k1, if_neg k2, if_pos k3]), ?_⟩
        exact ⟨⟨s1, .miss l1 (other k1), e1⟩, ⟨s2, .miss l2 (other k2), e2⟩, ⟨some v, .hit l3 (k3 ▸ hsay), rfl⟩⟩
      · right
        have hk : ¬ Known (trim a) := by
          rintro (h | h | h)
          · exact k1 h
          · exact k2 h
          · exact k3 h
        refine ⟨?_, Or.inr ⟨trim a, v, hsay, hk, hline _ (by rw [hf]; dsimp only; rw [if_neg k1, if_neg k2, if_neg k3])⟩⟩
        rintro (h | ⟨k, w, hw, hkn⟩)
        · exact hs h
        · exact hk ((says_unique hsay hw).1 ▸ hkn)

theorem vgos_loop (ls : List Str) : ∀ (pre : List Str) (o : Vgos), VProduct pre o → (∀ l ∈ ls, Good l) →
    ∃ o', vgosLoop pre.length o ls = .ok o' ∧ VProduct (pre ++ ls) o' := by
  induction ls with
  | nil => intro pre o h _; exact ⟨o, rfl, by rw [List.append_nil]; exact h⟩
  | cons l ls ih =>
    intro pre o h hg
    rcases vgos_line (pre.length + 1) h l with ⟨_, o', e, h'⟩ | ⟨hn, _⟩
    · obtain ⟨o2, e2, h2⟩ := ih (pre ++ [l]) o' h' (fun x hx => hg x (by simp [hx]))
      refine ⟨o2, ?_, by simpa using h2⟩
      rw [vgosLoop, e]
      rw [List.length_append] at e2
      exact e2
    · exact absurd (hg l (by simp)) hn

theorem vproduct_nil : VProduct [] ⟨[], [], []⟩ := ⟨⟨none, .nil, rfl⟩, ⟨none, .nil, rfl⟩, ⟨none, .nil, rfl⟩⟩

/-- C144. A side-car whose lines are all good is read: the last value of every key, and the stations as the names between the commas. -/
theorem sidecar_reads {text : Str} (h : ∀ l ∈ rawLines text, Good l) : ∃ o, readVgos text = .ok o ∧ VProduct (rawLines text) o := by
  obtain ⟨o, e, p⟩ := vgos_loop (rawLines text) [] ⟨[], [], []⟩ vproduct_nil h
  exact ⟨o, e, by simpa using p⟩

/-- C144. Otherwise it is refused, with the number of the first bad line, and its key if it has one. -/
theorem sidecar_refuses {text : Str} {p q : List Str} {l : Str} (hs : rawLines text = p ++ l :: q) (hp : ∀ x ∈ p, Good x) (hl : ¬ Good l) :
    ('=' ∉ trim l ∧ readVgos text = .err (.noEquals (p.length + 1))) ∨ ∃ k v, Says l k v ∧ ¬ Known k ∧ readVgos text = .err (.unknown (p.length + 1) k) := by
  obtain ⟨o, e, hp'⟩ := vgos_loop p [] ⟨[], [], []⟩ vproduct_nil hp
  have happ : ∀ (a b : List Str) (n : Nat) (o1 o2 : Vgos), vgosLoop n o1 a = .ok o2 → vgosLoop n o1 (a ++ b) = vgosLoop (n + a.length) o2 b := by
    intro a
    induction a with
    | nil => intro b n o1 o2 h; cases h; rfl
    | cons x a ih =>
      intro b n o1 o2 h
      rw [vgosLoop] at h
      rw [List.cons_append, vgosLoop]
      cases hx : vgosLine (n + 1) o1 x with
      | ok o3 =>
        rw [hx] at h
        have := ih b (n + 1) o3 o2 h
        show vgosLoop (n + 1) o3 (a ++ b) = _
        rw [this, List.length_cons]
        congr 1
        omega
      | err y => rw [hx] at h; cases h
      | panic => rw [hx] at h; cases h
  have hr : readVgos text = (vgosLine (p.length + 1) o l).bind (fun o' => vgosLoop (p.length + 1) o' q) := by
    unfold readVgos
    rw [hs, happ p (l :: q) 0 _ o e, Nat.zero_add]
    rfl
  rw [List.nil_append] at hp'
  rcases vgos_line (p.length + 1) hp' l with ⟨hg, _⟩ | ⟨_, ⟨e', hn⟩ | ⟨k, v, hsay, hk, e'⟩⟩
  · exact absurd hg hl
  · left; exact ⟨hn, by rw [hr, e']; rfl⟩
  · right; exact ⟨k, v, hsay, hk, by rw [hr, e']; rfl⟩

/-- C144. A list of station names, written with commas between them, is read back. -/
theorem names_back (ss : List Str) (h : ∀ s ∈ ss, Tight s ∧ s ≠ [] ∧ ',' ∉ s) : names (List.intercalate [','] ss) = ss := by
  have hone : ∀ {s : Str}, Tight s ∧ s ≠ [] ∧ ',' ∉ s → ∀ rest : List Str, (((s :: rest).map trim).filter (fun x => x ≠ [])) = s :: ((rest.map trim).filter (fun x => x ≠ [])) := by
    intro s hs rest
    rw [List.map_cons, trim_tight hs.1, List.filter_cons_of_pos (by simpa using hs.2.1)]
  induction ss with
  | nil => rfl
  | cons s ss ih =>
    have hs := h s (by simp)
    cases ss with
    | nil =>
      unfold names
      rw [show List.intercalate [','] [s] = s by simp [List.intercalate], splitChar_single hs.2.2, hone hs]
      rfl
    | cons t ss =>
      have e : List.intercalate [','] (s :: t :: ss) = s ++ ',' :: List.intercalate [','] (t :: ss) := by simp [List.intercalate]
      have ih' := ih (fun x hx => h x (by simp [hx]))
      unfold names at ih' ⊢
      rw [e, splitChar_append hs.2.2, hone hs, ih']

/-! ### Cases -/

example : readVgos "# session\nsession_code=R1100\nstations=KOKEE, WETTZELL ,\nsession_code = R1101\n".toList = .ok ⟨"R1101".toList, [], ["KOKEE".toList, "WETTZELL".toList]⟩ := by decide +kernel
example : readVgos "\nsession_code=R1100\nnonsense\n".toList = .err (.noEquals 3) := by decide +kernel
example : readVgos "session_code=R1100\nstation=A\n".toList = .err (.unknown 2 "station".toList) := by decide +kernel
example : (file ["> 2024 01 02 03 04 05.000", "D01 12345.678 678.9"]).map (·.records) = some [⟨.num (60311 + (3 * 3600 + 4 * 60 + 5) / 86400), "D01".toList, "12345.678 678.9".toList⟩] := by
  decide +kernel
example : Calendar.Valid 2024 2 29 := ⟨by decide, by decide, by decide, by decide⟩

end Verif.Doris.Props
