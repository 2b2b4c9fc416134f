import Verif.Crd.Model
import Verif.Igs.Orbex
import Verif.Sp3.Write
import Mathlib.Tactic.Linarith
import Mathlib.Tactic.NormNum
import Mathlib.Tactic.Ring

/-! Claims C139-C140: laser ranging files. -/
namespace Verif.Crd.Props
open Verif.Text Verif.Sp3 Verif.Rinex Verif.Crd Verif.Igs.Props
open Verif.Sp3.Props (plainEnv)

variable {T : Type}

/-! ### What the file says, line by line

Every line is its tag and the fields after it. -/

/-- A field that may be missing or unreadable, with what is taken for it. -/
def fieldOr {α : Type} (parse : Str → Option α) (dflt : α) (ws : List Str) (i : Nat) : α :=
  match ws[i]? with
  | some w => (parse w).getD dflt
  | none => dflt

/-- The fields of a line with the given tag. -/
def tagged (tag : String) (l : Str) : Option (List Str) :=
  match words l with
  | t :: ws => if t = tag.toList then some ws else none
  | [] => none

def version (l : Str) : Option Str := (tagged "H1" l).bind (fun ws => ws[1]?)

def station (l : Str) : Option Station := (tagged "H2" l).map (fun ws =>
  ⟨fieldOr some [] ws 0, fieldOr i32 0 ws 1, fieldOr i32 0 ws 2, fieldOr i32 0 ws 3, fieldOr i32 0 ws 4⟩)

def target (l : Str) : Option Target := (tagged "H3" l).map (fun ws =>
  ⟨fieldOr some [] ws 0, fieldOr i32 0 ws 1, fieldOr some [] ws 2, fieldOr i32 0 ws 3, fieldOr i32 0 ws 4⟩)

/-- A session line with a day of the calendar: the day and its midnight. -/
def session (env : Env T) (l : Str) : Option ((Int × Nat × Nat) × T) := (tagged "H4" l).bind (fun ws =>
  let y := fieldOr i32 0 ws 1
  let m := fieldOr u32 0 ws 2
  let d := fieldOr u32 0 ws 3
  if env.dateOk y m d = true then (env.ofChrono ⟨y, m, d, 0, 0, 0, 0⟩).map (fun t => ((y, m, d), t)) else none)

def config (l : Str) : Option Str := (tagged "C0" l).bind (fun ws => ws[1]?)

/-- Seconds of day and time of flight of a range record with further fields. -/
def measured (ws : List Str) : Option (F64 × F64 × List Str) :=
  match ws with
  | s :: t :: rest => (parseFloat s).bind (fun s => (parseFloat t).map (fun t => (s, t, rest)))
  | _ => none

/-- Range records: tag 10 or 11. -/
def ranging (l : Str) : Option (List Str) := (tagged "10" l).orElse (fun _ => tagged "11" l)

/-- The day in force after some lines: that of the last session line. -/
def dayAt (env : Env T) (pre : List Str) : Option ((Int × Nat × Nat) × T) := pre.reverse.findSome? (session env)

/-- The configuration in force. -/
def configAt (pre : List Str) : Str := lastSaid config "std".toList pre

/-- The normal point of a line, given the lines before it. -/
def pointAt (env : Env T) (p : List Str × Str) : Option (NormalPoint T) :=
  ((tagged "11" p.2).bind measured).map (fun (sod, tof, rest) =>
    { secondsOfDay := sod
      epoch := (dayAt env p.1).bind (fun d => epochOf env sod d.1)
      timeOfFlight := tof
      rangeM := scaled 149896229 tof
      systemConfigId := (rest.head?).getD (configAt p.1)
      epochEvent := fieldOr (parseUInt 255) 0 rest 1
      filterFlag := fieldOr (parseUInt 255) 0 rest 2
      dataQuality := fieldOr (parseUInt 255) 0 rest 3
      formatFlag := fieldOr (parseUInt 255) 0 rest 4
      numRaws := (rest[5]?).bind u32
      binRmsM := ((rest[6]?).bind parseFloat).map (scaled (149896229 / 1000000000000))
      binSizeS := none
      returnRate := (rest[9]?).bind parseFloat })

/-- A range record that cannot be used. -/
def Broken (l : Str) : Prop := ∃ ws, ranging l = some ws ∧ measured ws = none

/-- What the lines say. -/
structure Product (env : Env T) (ls : List Str) (f : File T) : Prop where
  version : f.formatVersion = lastSaid version [] ls
  station : f.station = lastSaid station ⟨[], 0, 0, 0, 0⟩ ls
  target : f.target = lastSaid target ⟨[], 0, [], 0, 0⟩ ls
  session : f.sessionDate = (dayAt env ls).map Prod.snd
  points : f.points = (splits ls).filterMap (pointAt env)
  stationName : f.stationName = f.station.name
  stationPad : f.stationCdpPad = f.station.cdpPad
  satelliteName : f.satelliteName = f.target.name
  satelliteSic : f.satelliteSic = f.target.sic
  satelliteNorad : f.satelliteNorad = f.target.norad

/-! ### One line -/

theorem fieldOr_bind {α : Type} (parse : Str → Option α) (d : α) (ws : List Str) (i : Nat) : ((ws[i]?).bind parse).getD d = fieldOr parse d ws i := by
  unfold fieldOr
  cases ws[i]? <;> rfl

theorem textAt_eq (ws : List Str) (i : Nat) : textAt ws i = fieldOr some [] ws i := by
  unfold textAt fieldOr
  rw [List.getD_eq_getElem?_getD]
  cases ws[i]? <;> rfl

/-- The state after some lines. -/
structure Inv (env : Env T) (pre : List Str) (st : St T) : Prop where
  sys : st.sys = configAt pre
  date : st.date = (dayAt env pre).map Prod.fst
  prod : Product env pre st.out

theorem dayAt_snoc (env : Env T) (pre : List Str) (l : Str) : dayAt env (pre ++ [l]) = (session env l).or (dayAt env pre) := by
  unfold dayAt
  rw [List.reverse_append, List.reverse_singleton, List.singleton_append, List.findSome?_cons]
  cases session env l <;> rfl

theorem splitsFrom_append (q a b : List Str) : splitsFrom q (a ++ b) = splitsFrom q a ++ splitsFrom (q ++ a) b := by
  induction a generalizing q with
  | nil => simp [splitsFrom]
  | cons x a ih => simp [splitsFrom, ih]

theorem splits_snoc (pre : List Str) (l : Str) : splits (pre ++ [l]) = splits pre ++ [(pre, l)] := by
  unfold splits
  rw [splitsFrom_append]
  rfl

theorem tagged_other {tag : String} {l t : Str} {ws : List Str} (h : words l = t :: ws) (hne : t ≠ tag.toList) : tagged tag l = none := by
  unfold tagged; rw [h]; exact if_neg hne

theorem tagged_same {tag : String} {l : Str} {ws : List Str} (h : words l = tag.toList :: ws) : tagged tag l = some ws := by
  unfold tagged; rw [h]; exact if_pos rfl

theorem tagged_nil {tag : String} {l : Str} (h : words l = []) : tagged tag l = none := by unfold tagged; rw [h]

theorem version_other {l t : Str} {ws : List Str} (h : words l = t :: ws) (hne : t ≠ "H1".toList) : version l = none := by
  unfold version; rw [tagged_other h hne]; rfl

theorem station_other {l t : Str} {ws : List Str} (h : words l = t :: ws) (hne : t ≠ "H2".toList) : station l = none := by
  unfold station; rw [tagged_other h hne]; rfl

theorem target_other {l t : Str} {ws : List Str} (h : words l = t :: ws) (hne : t ≠ "H3".toList) : target l = none := by
  unfold target; rw [tagged_other h hne]; rfl

/-- Nothing in the line changes the state. -/
theorem inv_same {env : Env T} {pre : List Str} {st : St T} (h : Inv env pre st) {l : Str} (h1 : version l = none) (h2 : station l = none)
    (h3 : target l = none) (h4 : session env l = none) (h5 : config l = none) (h6 : pointAt env (pre, l) = none) : Inv env (pre ++ [l]) st := by
  obtain ⟨a, b, c⟩ := h
  obtain ⟨p1, p2, p3, p4, p5, p6, p7, p8, p9, p10⟩ := c
  refine ⟨?_, ?_, ?_, ?_, ?_, ?_, ?_, p6, p7, p8, p9, p10⟩
  · rw [a]; unfold configAt; rw [lastSaid_snoc, h5]; rfl
  · rw [b, dayAt_snoc, h4]; rfl
  · rw [p1, lastSaid_snoc, h1]; rfl
  · rw [p2, lastSaid_snoc, h2]; rfl
  · rw [p3, lastSaid_snoc, h3]; rfl
  · rw [p4, dayAt_snoc, h4]; rfl
  · rw [p5, splits_snoc, List.filterMap_append]; simp [h6]

theorem line_words (raw : Str) : (trimEnd raw = [] ∧ words raw = []) ∨ (trimEnd raw ≠ [] ∧ words (trimEnd raw) = words raw) := by
  by_cases h : trimEnd raw = []
  · left; refine ⟨h, ?_⟩; rw [← Verif.Cpf.Props.words_trimEnd, h]; rfl
  · exact Or.inr ⟨h, Verif.Cpf.Props.words_trimEnd raw⟩

theorem inv_silent {env : Env T} {pre : List Str} {st : St T} (h : Inv env pre st) {l : Str} (h1 : tagged "H1" l = none) (h2 : tagged "H2" l = none)
    (h3 : tagged "H3" l = none) (h4 : tagged "H4" l = none) (h5 : tagged "C0" l = none) (h6 : (tagged "11" l).bind measured = none) : Inv env (pre ++ [l]) st :=
  inv_same h (by unfold version; rw [h1]; rfl) (by unfold station; rw [h2]; rfl) (by unfold target; rw [h3]; rfl)
    (by unfold session; rw [h4]; rfl) (by unfold config; rw [h5]; rfl) (by unfold pointAt; rw [h6]; rfl)

theorem measured_some {ws : List Str} {sod tof : F64} (h0 : (ws[0]?).bind parseFloat = some sod) (h1 : (ws[1]?).bind parseFloat = some tof) :
    measured ws = some (sod, tof, ws.drop 2) := by
  match ws with
  | [] => simp at h0
  | [a] => simp at h1
  | a :: b :: rest =>
    simp only [List.getElem?_cons_zero, List.getElem?_cons_succ, Option.bind_some] at h0 h1
    simp [measured, h0, h1]

theorem measured_none {ws : List Str} (h : (ws[0]?).bind parseFloat = none ∨ (ws[1]?).bind parseFloat = none) : measured ws = none := by
  match ws with
  | [] => rfl
  | [a] => rfl
  | a :: b :: rest =>
    simp only [List.getElem?_cons_zero, List.getElem?_cons_succ, Option.bind_some] at h
    rcases h with h | h
    · simp [measured, h]
    · cases e : parseFloat a <;> simp [measured, h]

/-- The line of an error. -/
def errLine : Err → Nat
  | .noSecondsOfDay n => n
  | .noTimeOfFlight n => n

/-- One line: read, or refused in strict mode because it is a broken range record. -/
theorem line_spec (env : Env T) (strict : Bool) {pre : List Str} {st : St T} (h : Inv env pre st) (no : Nat) (l : Str) :
    ((¬ (strict = true ∧ Broken l)) ∧ ∃ st', crdLine env strict no st l = .ok st' ∧ Inv env (pre ++ [l]) st') ∨
    (strict = true ∧ Broken l ∧ ∃ e, crdLine env strict no st l = .err e ∧ errLine e = no) := by
  have notBroken : ∀ {t : Str} {ws : List Str}, words l = t :: ws → t ≠ "10".toList → t ≠ "11".toList → ¬ (strict = true ∧ Broken l) := by
    rintro t ws hw h10 h11 ⟨_, ws', hr, _⟩
    unfold ranging at hr
    rw [tagged_other hw h10, tagged_other hw h11] at hr
    cases hr
  rcases line_words l with ⟨e1, e2⟩ | ⟨e1, e2⟩
  · left
    refine ⟨?_, st, by unfold crdLine; simp [e1], ?_⟩
    · rintro ⟨_, ws', hr, _⟩
      unfold ranging at hr
      rw [tagged_nil e2, tagged_nil e2] at hr
      cases hr
    · exact inv_silent h (tagged_nil e2) (tagged_nil e2) (tagged_nil e2) (tagged_nil e2) (tagged_nil e2) (by rw [tagged_nil e2]; rfl)
  · cases hw : words l with
    | nil =>
      left
      refine ⟨?_, st, by unfold crdLine; simp [e1, e2, hw], ?_⟩
      · rintro ⟨_, ws', hr, _⟩
        unfold ranging at hr
        rw [tagged_nil hw, tagged_nil hw] at hr
        cases hr
      · exact inv_silent h (tagged_nil hw) (tagged_nil hw) (tagged_nil hw) (tagged_nil hw) (tagged_nil hw) (by rw [tagged_nil hw]; rfl)
    | cons t ws =>
      have hcode : crdLine env strict no st l =
          if t = "H1".toList then .ok (versionLine st ws)
          else if t = "H2".toList then .ok (stationLine st ws)
          else if t = "H3".toList then .ok (targetLine st ws)
          else if t = "H4".toList then .ok (dateLine env st ws)
          else if t = "C0".toList then .ok (configLine st ws)
          else if t = "10".toList then rangeLine env strict no st false ws
          else if t = "11".toList then rangeLine env strict no st true ws
          else .ok st := by
        unfold crdLine
        dsimp only
        rw [if_neg e1, e2, hw]
      by_cases t1 : t = "H1".toList
      · left
        subst t1
        refine ⟨notBroken hw (by decide) (by decide), versionLine st ws, by rw [hcode, if_pos rfl], ?_⟩
        unfold versionLine
        cases hv : ws[1]? with
        | none =>
          dsimp only
          exact inv_same h (by unfold version; rw [tagged_same hw]; exact hv) (by unfold station; rw [tagged_other hw (by decide)]; rfl)
            (by unfold target; rw [tagged_other hw (by decide)]; rfl) (by unfold session; rw [tagged_other hw (by decide)]; rfl)
            (by unfold config; rw [tagged_other hw (by decide)]; rfl) (by unfold pointAt; rw [tagged_other hw (by decide)]; rfl)
        | some v =>
          dsimp only
          obtain ⟨a, b, p1, p2, p3, p4, p5, p6, p7, p8, p9, p10⟩ := h
          refine ⟨?_, ?_, ?_, ?_, ?_, ?_, ?_, p6, p7, p8, p9, p10⟩
          · show st.sys = _
            rw [a]; unfold configAt; rw [lastSaid_snoc]; unfold config; rw [tagged_other hw (by decide)]; rfl
          · show st.date = _
            rw [b, dayAt_snoc]; unfold session; rw [tagged_other hw (by decide)]; rfl
          · show v = _
            rw [lastSaid_snoc]; unfold version; rw [tagged_same hw]; simp [hv]
          · show st.out.station = _
            rw [p2, lastSaid_snoc]; rw [station_other hw (by decide)]; rfl
          · show st.out.target = _
            rw [p3, lastSaid_snoc]; rw [target_other hw (by decide)]; rfl
          · show st.out.sessionDate = _
            rw [p4, dayAt_snoc]; unfold session; rw [tagged_other hw (by decide)]; rfl
          · show st.out.points = _
            rw [p5, splits_snoc, List.filterMap_append]
            have : pointAt env (pre, l) = none := by unfold pointAt; rw [tagged_other hw (by decide)]; rfl
            simp [this]
      by_cases t2 : t = "H2".toList
      · left
        subst t2
        refine ⟨notBroken hw (by decide) (by decide), stationLine st ws, by rw [hcode, if_neg (by decide), if_pos rfl], ?_⟩
        obtain ⟨a, b, p1, p2, p3, p4, p5, p6, p7, p8, p9, p10⟩ := h
        refine ⟨?_, ?_, ?_, ?_, ?_, ?_, ?_, rfl, rfl, p8, p9, p10⟩
        · show st.sys = _
          rw [a]; unfold configAt; rw [lastSaid_snoc]; unfold config; rw [tagged_other hw (by decide)]; rfl
        · show st.date = _
          rw [b, dayAt_snoc]; unfold session; rw [tagged_other hw (by decide)]; rfl
        · show st.out.formatVersion = _
          rw [p1, lastSaid_snoc]; rw [version_other hw (by decide)]; rfl
        · show (⟨textAt ws 0, intAt ws 1, intAt ws 2, intAt ws 3, intAt ws 4⟩ : Station) = _
          rw [lastSaid_snoc]
          simp only [station, tagged_same hw, Option.map_some, Option.getD_some, textAt_eq, intAt, fieldOr_bind]
        · show st.out.target = _
          rw [p3, lastSaid_snoc]; rw [target_other hw (by decide)]; rfl
        · show st.out.sessionDate = _
          rw [p4, dayAt_snoc]; unfold session; rw [tagged_other hw (by decide)]; rfl
        · show st.out.points = _
          rw [p5, splits_snoc, List.filterMap_append]
          have : pointAt env (pre, l) = none := by unfold pointAt; rw [tagged_other hw (by decide)]; rfl
          simp [this]
      by_cases t3 : t = "H3".toList
      · left
        subst t3
        refine ⟨notBroken hw (by decide) (by decide), targetLine st ws, by rw [hcode, if_neg (by decide), if_neg (by decide), if_pos rfl], ?_⟩
        obtain ⟨a, b, p1, p2, p3, p4, p5, p6, p7, p8, p9, p10⟩ := h
        refine ⟨?_, ?_, ?_, ?_, ?_, ?_, ?_, p6, p7, rfl, rfl, rfl⟩
        · show st.sys = _
          rw [a]; unfold configAt; rw [lastSaid_snoc]; unfold config; rw [tagged_other hw (by decide)]; rfl
        · show st.date = _
          rw [b, dayAt_snoc]; unfold session; rw [tagged_other hw (by decide)]; rfl
        · show st.out.formatVersion = _
          rw [p1, lastSaid_snoc]; rw [version_other hw (by decide)]; rfl
        · show st.out.station = _
          rw [p2, lastSaid_snoc]; rw [station_other hw (by decide)]; rfl
        · show (⟨textAt ws 0, intAt ws 1, textAt ws 2, intAt ws 3, intAt ws 4⟩ : Target) = _
          rw [lastSaid_snoc]
          simp only [target, tagged_same hw, Option.map_some, Option.getD_some, textAt_eq, intAt, fieldOr_bind]
        · show st.out.sessionDate = _
          rw [p4, dayAt_snoc]; unfold session; rw [tagged_other hw (by decide)]; rfl
        · show st.out.points = _
          rw [p5, splits_snoc, List.filterMap_append]
          have : pointAt env (pre, l) = none := by unfold pointAt; rw [tagged_other hw (by decide)]; rfl
          simp [this]
      by_cases t4 : t = "H4".toList
      · left
        subst t4
        refine ⟨notBroken hw (by decide) (by decide), dateLine env st ws, by rw [hcode, if_neg (by decide), if_neg (by decide), if_neg (by decide), if_pos rfl], ?_⟩
        have hs : session env l = if env.dateOk (intAt ws 1) (natAt ws 2) (natAt ws 3) = true then
            (env.ofChrono ⟨intAt ws 1, natAt ws 2, natAt ws 3, 0, 0, 0, 0⟩).map (fun t => ((intAt ws 1, natAt ws 2, natAt ws 3), t)) else none := by
          unfold session
          rw [tagged_same hw]
          simp only [Option.bind_some, intAt, natAt, fieldOr_bind]
        have same : session env l = none → Inv env (pre ++ [l]) st := fun hn =>
          inv_same h (by unfold version; rw [tagged_other hw (by decide)]; rfl) (by unfold station; rw [tagged_other hw (by decide)]; rfl)
            (by unfold target; rw [tagged_other hw (by decide)]; rfl) hn
            (by unfold config; rw [tagged_other hw (by decide)]; rfl) (by unfold pointAt; rw [tagged_other hw (by decide)]; rfl)
        unfold dateLine
        dsimp only
        by_cases hd : env.dateOk (intAt ws 1) (natAt ws 2) (natAt ws 3) = true
        · rw [if_pos hd] at hs ⊢
          cases ht : env.ofChrono ⟨intAt ws 1, natAt ws 2, natAt ws 3, 0, 0, 0, 0⟩ with
          | none => dsimp only; rw [ht] at hs; exact same hs
          | some tm =>
            dsimp only
            rw [ht, Option.map_some] at hs
            obtain ⟨a, b, p1, p2, p3, p4, p5, p6, p7, p8, p9, p10⟩ := h
            refine ⟨?_, ?_, ?_, ?_, ?_, ?_, ?_, p6, p7, p8, p9, p10⟩
            · show st.sys = _
              rw [a]; unfold configAt; rw [lastSaid_snoc]; unfold config; rw [tagged_other hw (by decide)]; rfl
            · rw [dayAt_snoc, hs]; rfl
            · show st.out.formatVersion = _
              rw [p1, lastSaid_snoc]; rw [version_other hw (by decide)]; rfl
            · show st.out.station = _
              rw [p2, lastSaid_snoc]; rw [station_other hw (by decide)]; rfl
            · show st.out.target = _
              rw [p3, lastSaid_snoc]; rw [target_other hw (by decide)]; rfl
            · rw [dayAt_snoc, hs]; rfl
            · show st.out.points = _
              rw [p5, splits_snoc, List.filterMap_append]
              have : pointAt env (pre, l) = none := by unfold pointAt; rw [tagged_other hw (by decide)]; rfl
              simp [this]
        · rw [if_neg hd] at hs ⊢
          exact same hs
      by_cases t5 : t = "C0".toList
      · left
        subst t5
        refine ⟨notBroken hw (by decide) (by decide), configLine st ws,
          by rw [hcode, if_neg (by decide), if_neg (by decide), if_neg (by decide), if_neg (by decide), if_pos rfl], ?_⟩
        unfold configLine
        have q : ∀ {f : File T}, Product env pre f → Product env (pre ++ [l]) f := by
          rintro f ⟨p1, p2, p3, p4, p5, p6, p7, p8, p9, p10⟩
          refine ⟨?_, ?_, ?_, ?_, ?_, p6, p7, p8, p9, p10⟩
          · rw [p1, lastSaid_snoc]; rw [version_other hw (by decide)]; rfl
          · rw [p2, lastSaid_snoc]; rw [station_other hw (by decide)]; rfl
          · rw [p3, lastSaid_snoc]; rw [target_other hw (by decide)]; rfl
          · rw [p4, dayAt_snoc]; unfold session; rw [tagged_other hw (by decide)]; rfl
          · rw [p5, splits_snoc, List.filterMap_append]
            have : pointAt env (pre, l) = none := by unfold pointAt; rw [tagged_other hw (by decide)]; rfl
            simp [this]
        have hd : dayAt env (pre ++ [l]) = dayAt env pre := by
          rw [dayAt_snoc]; unfold session; rw [tagged_other hw (by decide)]; rfl
        cases hv : ws[1]? with
        | none =>
          dsimp only
          refine ⟨?_, by rw [h.date, hd], q h.prod⟩
          rw [h.sys]; unfold configAt; rw [lastSaid_snoc]; unfold config; rw [tagged_same hw]; simp [hv]
        | some v =>
          dsimp only
          refine ⟨?_, by show st.date = _; rw [h.date, hd], q h.prod⟩
          show v = _
          unfold configAt; rw [lastSaid_snoc]; unfold config; rw [tagged_same hw]; simp [hv]
      by_cases t6 : t = "10".toList
      · subst t6
        have hr : ranging l = some ws := by unfold ranging; rw [tagged_same hw]; rfl
        have hI : Inv env (pre ++ [l]) st := inv_silent h (tagged_other hw (by decide)) (tagged_other hw (by decide)) (tagged_other hw (by decide))
          (tagged_other hw (by decide)) (tagged_other hw (by decide)) (by rw [tagged_other hw (by decide)]; rfl)
        have hc : crdLine env strict no st l = rangeLine env strict no st false ws := by
          rw [hcode, if_neg (by decide), if_neg (by decide), if_neg (by decide), if_neg (by decide), if_neg (by decide), if_pos rfl]
        rw [hc]
        unfold rangeLine
        cases h0 : (ws[0]?).bind parseFloat with
        | none =>
          have hb : Broken l := ⟨ws, hr, measured_none (Or.inl h0)⟩
          cases strict with
          | true => right; exact ⟨rfl, hb, _, rfl, rfl⟩
          | false => left; exact ⟨by simp, st, rfl, hI⟩
        | some sod =>
          cases h1 : (ws[1]?).bind parseFloat with
          | none =>
            have hb : Broken l := ⟨ws, hr, measured_none (Or.inr h1)⟩
            cases strict with
            | true => right; exact ⟨rfl, hb, _, rfl, rfl⟩
            | false => left; exact ⟨by simp, st, rfl, hI⟩
          | some tof =>
            left
            refine ⟨?_, st, rfl, hI⟩
            rintro ⟨_, ws', hr', hm⟩
            rw [hr] at hr'
            cases hr'
            rw [measured_some h0 h1] at hm
            cases hm
      by_cases t7 : t = "11".toList
      · subst t7
        have hr : ranging l = some ws := by unfold ranging; rw [tagged_other hw (by decide), tagged_same hw]; rfl
        have hI : measured ws = none → Inv env (pre ++ [l]) st := fun hn => inv_silent h (tagged_other hw (by decide)) (tagged_other hw (by decide))
          (tagged_other hw (by decide)) (tagged_other hw (by decide)) (tagged_other hw (by decide)) (by rw [tagged_same hw]; exact hn)
        have hc : crdLine env strict no st l = rangeLine env strict no st true ws := by
          rw [hcode, if_neg (by decide), if_neg (by decide), if_neg (by decide), if_neg (by decide), if_neg (by decide), if_neg (by decide), if_pos rfl]
        rw [hc]
        unfold rangeLine
        cases h0 : (ws[0]?).bind parseFloat with
        | none =>
          have hb := measured_none (Or.inl h0)
          cases strict with
          | true => right; exact ⟨rfl, ⟨ws, hr, hb⟩, _, rfl, rfl⟩
          | false => left; exact ⟨by simp, st, rfl, hI hb⟩
        | some sod =>
          cases h1 : (ws[1]?).bind parseFloat with
          | none =>
            have hb := measured_none (Or.inr h1)
            cases strict with
            | true => right; exact ⟨rfl, ⟨ws, hr, hb⟩, _, rfl, rfl⟩
            | false => left; exact ⟨by simp, st, rfl, hI hb⟩
          | some tof =>
            left
            refine ⟨?_, _, rfl, ?_⟩
            · rintro ⟨_, ws', hr', hm⟩
              rw [hr] at hr'
              cases hr'
              rw [measured_some h0 h1] at hm
              cases hm
            · obtain ⟨a, b, p1, p2, p3, p4, p5, p6, p7, p8, p9, p10⟩ := h
              refine ⟨?_, ?_, ?_, ?_, ?_, ?_, ?_, p6, p7, p8, p9, p10⟩
              · show st.sys = _
                rw [a]; unfold configAt; rw [lastSaid_snoc]; unfold config; rw [tagged_other hw (by decide)]; rfl
              · show st.date = _
                rw [b, dayAt_snoc]; unfold session; rw [tagged_other hw (by decide)]; rfl
              · show st.out.formatVersion = _
                rw [p1, lastSaid_snoc]; rw [version_other hw (by decide)]; rfl
              · show st.out.station = _
                rw [p2, lastSaid_snoc]; rw [station_other hw (by decide)]; rfl
              · show st.out.target = _
                rw [p3, lastSaid_snoc]; rw [target_other hw (by decide)]; rfl
              · show st.out.sessionDate = _
                rw [p4, dayAt_snoc]; unfold session; rw [tagged_other hw (by decide)]; rfl
              · show st.out.points ++ [pointOf env st sod tof (ws.drop 2)] = _
                rw [p5, splits_snoc, List.filterMap_append]
                congr 1
                have : pointAt env (pre, l) = some (pointOf env st sod tof (ws.drop 2)) := by
                  unfold pointAt pointOf
                  rw [tagged_same hw]
                  simp only [Option.bind_some, measured_some h0 h1, Option.map_some, a, b, byteAt, fieldOr_bind, List.head?_eq_getElem?, rangeOf,
                    Option.bind_map]
                  norm_num
                rw [List.filterMap_cons, this]
                rfl
      left
      refine ⟨notBroken hw t6 t7, st, by rw [hcode, if_neg t1, if_neg t2, if_neg t3, if_neg t4, if_neg t5, if_neg t6, if_neg t7], ?_⟩
      exact inv_silent h (tagged_other hw t1) (tagged_other hw t2) (tagged_other hw t3) (tagged_other hw t4) (tagged_other hw t5)
        (by rw [tagged_other hw t7]; rfl)

/-! ### The file -/

theorem loop_spec (env : Env T) (strict : Bool) (ls : List Str) : ∀ (pre : List Str) (st : St T), Inv env pre st →
    ((¬ (strict = true ∧ ∃ l ∈ ls, Broken l)) ∧ ∃ st', crdLoop env strict (pre.length + 1) st ls = .ok st' ∧ Inv env (pre ++ ls) st') ∨
    (strict = true ∧ ∃ p l q e, ls = p ++ l :: q ∧ Broken l ∧ (∀ l' ∈ p, ¬ Broken l') ∧ crdLoop env strict (pre.length + 1) st ls = .err e ∧
      errLine e = pre.length + p.length + 1) := by
  induction ls with
  | nil => intro pre st h; left; exact ⟨by simp, st, rfl, by rw [List.append_nil]; exact h⟩
  | cons l ls ih =>
    intro pre st h
    rcases line_spec env strict h (pre.length + 1) l with ⟨hn, st', e, hI⟩ | ⟨hs, hb, e, he, hl⟩
    · have hlen : (pre ++ [l]).length = pre.length + 1 := by simp
      have hstep : crdLoop env strict (pre.length + 1) st (l :: ls) = crdLoop env strict ((pre ++ [l]).length + 1) st' ls := by
        rw [crdLoop, e, hlen]; rfl
      rcases ih (pre ++ [l]) st' hI with ⟨hn', st'', e', hI'⟩ | ⟨hs, p, l', q, e', h1, h2, h3, h4, h5⟩
      · left
        refine ⟨?_, st'', by rw [hstep, e'], by rw [List.append_assoc] at hI'; exact hI'⟩
        rintro ⟨hs, l', hl', hb⟩
        rcases List.mem_cons.mp hl' with rfl | hl'
        · exact hn ⟨hs, hb⟩
        · exact hn' ⟨hs, l', hl', hb⟩
      · right
        refine ⟨hs, l :: p, l', q, e', by rw [h1]; rfl, h2, ?_, by rw [hstep, h4], ?_⟩
        · intro x hx
          rcases List.mem_cons.mp hx with rfl | hx
          · exact fun hb => hn ⟨hs, hb⟩
          · exact h3 x hx
        · rw [h5]; simp; omega
    · right
      refine ⟨hs, [], l, ls, e, rfl, hb, by simp, by rw [crdLoop, he]; rfl, by rw [hl]; simp⟩

theorem inv_start (env : Env T) : Inv env [] (start : St T) :=
  ⟨rfl, rfl, rfl, rfl, rfl, rfl, rfl, rfl, rfl, rfl, rfl, rfl⟩

/-- C139. In permissive mode every file is read, into exactly what its lines say: the last version, station, target and session
lines, and one normal point for every usable record of type 11, in order, each with the day and configuration in force there. -/
theorem permissive_reads (env : Env T) (text : Str) : ∃ f, parseCrd env false text = .ok f ∧ Product env (lines text) f := by
  rcases loop_spec env false (lines text) [] start (inv_start env) with ⟨_, st', e, h⟩ | ⟨h, _⟩
  · refine ⟨st'.out, ?_, by rw [List.nil_append] at h; exact h.prod⟩
    unfold parseCrd
    rw [show (1 : Nat) = ([] : List Str).length + 1 from rfl, e]
    rfl
  · cases h

/-- C139. In strict mode a file without broken range records is read the same way. -/
theorem strict_reads (env : Env T) {text : Str} (h : ∀ l ∈ lines text, ¬ Broken l) :
    ∃ f, parseCrd env true text = .ok f ∧ parseCrd env false text = .ok f ∧ Product env (lines text) f := by
  rcases loop_spec env true (lines text) [] start (inv_start env) with ⟨_, st', e, hI⟩ | ⟨_, p, l, q, _, hsplit, hb, _⟩
  · rcases loop_spec env false (lines text) [] start (inv_start env) with ⟨_, st2, e2, hI2⟩ | ⟨h', _⟩
    · rw [List.nil_append] at hI hI2
      have heq : st2.out = st'.out := by
        obtain ⟨_, _, p1, p2, p3, p4, p5, p6, p7, p8, p9, p10⟩ := hI
        obtain ⟨_, _, q1, q2, q3, q4, q5, q6, q7, q8, q9, q10⟩ := hI2
        obtain ⟨⟨a1, a2, a3, a4, a5, a6, a7, a8, a9, a10⟩, a11, a12⟩ := st'
        obtain ⟨⟨b1, b2, b3, b4, b5, b6, b7, b8, b9, b10⟩, b11, b12⟩ := st2
        dsimp only at *
        subst p1 p2 p3 p4 p5 q1 q2 q3 q4 q5 p6 p7 p8 p9 p10 q6 q7 q8 q9 q10
        rfl
      refine ⟨st'.out, ?_, ?_, hI.prod⟩
      · unfold parseCrd; rw [show (1 : Nat) = ([] : List Str).length + 1 from rfl, e]; rfl
      · unfold parseCrd; rw [show (1 : Nat) = ([] : List Str).length + 1 from rfl, e2, ← heq]; rfl
    · cases h'
  · exact absurd hb (h l (by rw [hsplit]; simp))

/-- C139. In strict mode a file with a broken range record is refused, with the number of its first broken line. -/
theorem strict_refuses (env : Env T) {text : Str} {p q : List Str} {l : Str} (hs : lines text = p ++ l :: q) (hb : Broken l)
    (hp : ∀ l' ∈ p, ¬ Broken l') : ∃ e, parseCrd env true text = .err e ∧ errLine e = p.length + 1 := by
  rcases loop_spec env true (lines text) [] start (inv_start env) with ⟨hn, _⟩ | ⟨_, p', l', q', e, hs', hb', hp', he, hl⟩
  · exact absurd ⟨rfl, l, by rw [hs]; simp, hb⟩ hn
  · have : p'.length = p.length := by
      have hh := hs.symm.trans hs'
      rcases List.append_eq_append_iff.mp hh with ⟨a, e1, e2⟩ | ⟨a, e1, e2⟩
      · cases a with
        | nil => rw [e1]; simp
        | cons x a =>
          simp only [List.cons_append, List.cons.injEq] at e2
          exact absurd hb (hp' l (by rw [e1, e2.1]; simp))
      · cases a with
        | nil => rw [e1]; simp
        | cons x a =>
          simp only [List.cons_append, List.cons.injEq] at e2
          exact absurd hb' (hp l' (by rw [e1, e2.1]; simp))
    refine ⟨e, ?_, by rw [hl, this]; simp⟩
    unfold parseCrd
    rw [show (1 : Nat) = ([] : List Str).length + 1 from rfl, he]
    rfl

/-! ### Epochs -/

theorem wrap_small {n : Nat} (h : n < 2 ^ 32) : wrapU32 (n : Int) = n := by
  unfold wrapU32
  omega

theorem clock_parts {n : Nat} (h : n < 86400) : wrapU32 ((n : Int).tdiv 3600) = n / 3600 ∧ wrapU32 (((n : Int).tmod 3600).tdiv 60) = n % 3600 / 60 ∧
    wrapU32 ((n : Int).tmod 60) = n % 60 := by
  have e1 : (n : Int).tdiv 3600 = ((n / 3600 : Nat) : Int) := by
    rw [Int.tdiv_eq_ediv_of_nonneg (by omega)]; omega
  have e2 : (n : Int).tmod 3600 = ((n % 3600 : Nat) : Int) := by
    rw [Int.tmod_eq_emod_of_nonneg (by omega)]; omega
  have e3 : (((n % 3600 : Nat) : Int)).tdiv 60 = ((n % 3600 / 60 : Nat) : Int) := by
    rw [Int.tdiv_eq_ediv_of_nonneg (by omega)]; omega
  have e4 : (n : Int).tmod 60 = ((n % 60 : Nat) : Int) := by
    rw [Int.tmod_eq_emod_of_nonneg (by omega)]; omega
  rw [e1, e2, e3, e4]
  exact ⟨wrap_small (by omega), wrap_small (by omega), wrap_small (by omega)⟩

/-- Seconds since midnight of a time of day. -/
def sinceMidnight (c : Civil) : ℚ := 3600 * c.hour + 60 * c.minute + c.second + (c.nano : ℚ) / 10 ^ 9

theorem asI64_nat {q : ℚ} (h0 : 0 ≤ q) (h1 : q < 86400) : ∃ n : Nat, n < 86400 ∧ asI64 (.num q) = n ∧ (n : ℚ) ≤ q ∧ q < n + 1 := by
  have f0 : 0 ≤ ⌊q⌋ := Int.floor_nonneg.mpr h0
  have f1 : ⌊q⌋ < 86400 := Int.floor_lt.mpr (by exact_mod_cast h1)
  obtain ⟨n, hn⟩ := Int.eq_ofNat_of_zero_le f0
  refine ⟨n, by omega, ?_, ?_, ?_⟩
  · unfold asI64
    dsimp only
    rw [if_pos h0, hn]
    omega
  · have := Int.floor_le q; rw [hn] at this; exact_mod_cast this
  · have := Int.lt_floor_add_one q; rw [hn] at this; exact_mod_cast this

/-- C140. A time of day from 0 to 86400 seconds that does not round up to the next second is dated on the session's day, to the
nearest nanosecond. -/
theorem epoch_of_day {env : Env T} {y : Int} {m d : Nat} (hd : env.dateOk y m d = true) {q : ℚ} (h0 : 0 ≤ q) (h1 : q < 86400)
    (hr : ∀ n : Nat, q < n → q < n - 1 / 2 / 10 ^ 9) :
    ∃ c : Civil, c.year = y ∧ c.month = m ∧ c.day = d ∧ c.hour < 24 ∧ c.minute < 60 ∧ c.second < 60 ∧ c.nano < 10 ^ 9 ∧
      |sinceMidnight c - q| ≤ 1 / 2 / 10 ^ 9 ∧ epochOf env (.num q) (y, m, d) = env.ofChrono c := by
  obtain ⟨n, hn, e, hq0, hq1⟩ := asI64_nat h0 h1
  obtain ⟨c1, c2, c3⟩ := clock_parts hn
  have hr' := hr (n + 1) (by push_cast; exact hq1)
  push_cast at hr'
  have hx : 0 ≤ (q - n) * 10 ^ 9 := mul_nonneg (by linarith) (by norm_num)
  have hs := roundHalfUp_spec ((q - n) * 10 ^ 9) hx
  have hlt : roundHalfUp ((q - n) * 10 ^ 9) < 10 ^ 9 := by
    unfold roundHalfUp
    have : ⌊(q - n) * 10 ^ 9 + 1 / 2⌋ < 10 ^ 9 := by
      rw [Int.floor_lt]
      push_cast
      have := mul_lt_mul_of_pos_right hr' (by norm_num : (0 : ℚ) < 10 ^ 9)
      nlinarith
    omega
  generalize hk : roundHalfUp ((q - n) * 10 ^ 9) = k at hs hlt
  refine ⟨⟨y, m, d, n / 3600, n % 3600 / 60, n % 60, k⟩, rfl, rfl, rfl, by dsimp only; omega, by dsimp only; omega, by dsimp only; omega, hlt, ?_, ?_⟩
  · unfold sinceMidnight
    dsimp only
    have hsplit : (3600 * ((n / 3600 : Nat) : ℚ) + 60 * ((n % 3600 / 60 : Nat) : ℚ) + ((n % 60 : Nat) : ℚ)) = n := by
      have : 3600 * (n / 3600) + 60 * (n % 3600 / 60) + n % 60 = n := by omega
      exact_mod_cast this
    rw [hsplit]
    rw [abs_le] at hs ⊢
    constructor <;> linarith [hs.1, hs.2]
  · unfold epochOf
    dsimp only
    rw [e, c1, c2, c3]
    have hnan : subsecNanos (.num q) (n : Int) = k := by
      unfold subsecNanos
      dsimp only
      rw [Int.cast_natCast, hk]
      omega
    rw [hnan, hd]
    have ht : timeOk (n / 3600) (n % 3600 / 60) (n % 60) k = true := by
      unfold timeOk
      simp only [Bool.and_eq_true, Bool.or_eq_true, decide_eq_true_eq]
      omega
    rw [ht]
    rfl

/-- C140, finding. From 86400 seconds on - a pass over midnight whose seconds run on - the point has no epoch. -/
theorem epoch_past_midnight (env : Env T) {q : ℚ} (h0 : 86400 ≤ q) (h1 : q < 2 ^ 31) (date : Int × Nat × Nat) : epochOf env (.num q) date = none := by
  have f0 : 86400 ≤ ⌊q⌋ := Int.le_floor.mpr (by exact_mod_cast h0)
  have f1 : ⌊q⌋ < 2 ^ 31 := Int.floor_lt.mpr (by exact_mod_cast h1)
  have e : asI64 (.num q) = ⌊q⌋ := by
    unfold asI64
    dsimp only
    rw [if_pos (by linarith)]
    omega
  have hh : 24 ≤ wrapU32 ((asI64 (.num q)).tdiv 3600) := by
    rw [e, Int.tdiv_eq_ediv_of_nonneg (by omega)]
    unfold wrapU32
    omega
  unfold epochOf
  dsimp only
  have : timeOk (wrapU32 ((asI64 (.num q)).tdiv 3600)) (wrapU32 (((asI64 (.num q)).tmod 3600).tdiv 60)) (wrapU32 ((asI64 (.num q)).tmod 60))
      (subsecNanos (.num q) (asI64 (.num q))) = false := by
    unfold timeOk
    rw [decide_eq_false (by omega : ¬ wrapU32 ((asI64 (.num q)).tdiv 3600) < 24)]
    rfl
  rw [this, Bool.and_false]
  rfl

/-- C140. A point carries the one-way range of its time of flight, `c t / 2`, and no point ever carries a bin size. -/
theorem point_range (env : Env T) {text : Str} {strict : Bool} {f : File T} (h : parseCrd env strict text = .ok f) :
    ∀ p ∈ f.points, (∀ t, p.timeOfFlight = .num t → p.rangeM = .num (299792458 * t / 2)) ∧ p.binSizeS = none := by
  have hprod : f.points = (splits (lines text)).filterMap (pointAt env) := by
    rcases loop_spec env strict (lines text) [] start (inv_start env) with ⟨_, st', e, hI⟩ | ⟨_, p, l, q, e, _, _, _, he, _⟩
    · unfold parseCrd at h
      rw [show (1 : Nat) = ([] : List Str).length + 1 from rfl, e] at h
      cases h
      have := hI.prod.points
      rw [List.nil_append] at this
      exact this
    · unfold parseCrd at h
      rw [show (1 : Nat) = ([] : List Str).length + 1 from rfl, he] at h
      cases h
  intro p hp
  rw [hprod, List.mem_filterMap] at hp
  obtain ⟨x, _, hx⟩ := hp
  unfold pointAt at hx
  rw [Option.map_eq_some_iff] at hx
  obtain ⟨⟨sod, tof, rest⟩, _, rfl⟩ := hx
  refine ⟨?_, rfl⟩
  intro t ht
  dsimp only at ht ⊢
  rw [ht]
  show F64.num (t * 149896229) = _
  rw [show t * 149896229 = 299792458 * t / 2 by ring]

/-- C140, finding. A pass over midnight whose seconds of day start again, as the format has it: the second point is dated almost a
day before the first. -/
theorem midnight_goes_back :
    (parseCrd plainEnv true "H4 1 2024 01 01 23 59 00 2024 01 02 00 10 00\n11 86399.5 0.05\n11 0.5 0.05\n".toList).bind
      (fun f => .ok (f.points.map (·.epoch))) =
    .ok [some ⟨2024, 1, 1, 23, 59, 59, 500000000⟩, some ⟨2024, 1, 1, 0, 0, 0, 500000000⟩] := by decide +kernel

/-- C140, finding. By the field order the code itself quotes (system, epoch event, filter, quality, format, number of ranges, rms, skew,
kurtosis, peak, return rate) the value reported as return rate is the peak. -/
theorem return_rate_is_peak :
    (parseCrd plainEnv true "11 100.0 0.05 std 2 0 0 0 18 94.0 0.1 0.2 33.0 77.0\n".toList).bind (fun f => .ok (f.points.map (·.returnRate))) =
      .ok [some (.num 33)] := by decide +kernel

/-- A record as the stations send it (system, epoch event, window length, number of ranges, rms, skew, kurtosis, peak, return rate): the
number of ranges is reported as data quality, the kurtosis as rms, and the window length is lost. -/
example : (parseCrd plainEnv true "11 55432.0414338 0.047960587856 std 2 120.0 18 94.0 0.113 -0.943 6.0 5.2 0\n".toList).bind
    (fun f => .ok (f.points.map (fun p => (p.dataQuality, p.numRaws, p.binRmsM, p.binSizeS)))) =
      .ok [(18, none, some (.num (-943 / 1000 * (149896229 / 1000000000000))), none)] := by decide +kernel

/-- Half a nanosecond before a full second: no epoch; before a full minute: a leap second. -/
example : epochOf plainEnv (.num (100 - 1 / 10 ^ 10)) (2024, 1, 1) = none ∧
    epochOf plainEnv (.num (120 - 1 / 10 ^ 10)) (2024, 1, 1) = some ⟨2024, 1, 1, 0, 1, 59, 10 ^ 9⟩ := by decide +kernel

/-- C139. What a refusal names: the line, and the first of the two fields that could not be read. -/
theorem refusal_names (env : Env T) (strict : Bool) (no : Nat) (st : St T) (l : Str) {e : Err} (h : crdLine env strict no st l = .err e) :
    ∃ ws, ranging l = some ws ∧ ((e = .noSecondsOfDay no ∧ (ws[0]?).bind parseFloat = none) ∨
      (e = .noTimeOfFlight no ∧ (ws[0]?).bind parseFloat ≠ none ∧ (ws[1]?).bind parseFloat = none)) := by
  have key : ∀ {b ws}, rangeLine env strict no st b ws = .err e → (e = .noSecondsOfDay no ∧ (ws[0]?).bind parseFloat = none) ∨
      (e = .noTimeOfFlight no ∧ (ws[0]?).bind parseFloat ≠ none ∧ (ws[1]?).bind parseFloat = none) := by
    intro b ws h
    unfold rangeLine at h
    cases h0 : (ws[0]?).bind parseFloat with
    | none =>
      rw [h0] at h
      dsimp only at h
      split at h
      · cases h; exact Or.inl ⟨rfl, rfl⟩
      · cases h
    | some s =>
      cases h1 : (ws[1]?).bind parseFloat with
      | none =>
        rw [h0, h1] at h
        dsimp only at h
        split at h
        · cases h; exact Or.inr ⟨rfl, by simp, rfl⟩
        · cases h
      | some t =>
        rw [h0, h1] at h
        dsimp only at h
        split at h <;> cases h
  unfold crdLine at h
  dsimp only at h
  rcases line_words l with ⟨e1, e2⟩ | ⟨e1, e2⟩
  · rw [if_pos e1] at h; cases h
  · rw [if_neg e1, e2] at h
    cases hw : words l with
    | nil => rw [hw] at h; cases h
    | cons t ws =>
      rw [hw] at h
      dsimp only at h
      by_cases t6 : t = "10".toList
      · subst t6
        rw [if_neg (by decide), if_neg (by decide), if_neg (by decide), if_neg (by decide), if_neg (by decide), if_pos rfl] at h
        exact ⟨ws, by unfold ranging; rw [tagged_same hw]; rfl, key h⟩
      by_cases t7 : t = "11".toList
      · subst t7
        rw [if_neg (by decide), if_neg (by decide), if_neg (by decide), if_neg (by decide), if_neg (by decide), if_neg (by decide), if_pos rfl] at h
        exact ⟨ws, by unfold ranging; rw [tagged_other hw (by decide), tagged_same hw]; rfl, key h⟩
      simp only [t6, t7, if_false] at h
      split at h
      · cases h
      split at h
      · cases h
      split at h
      · cases h
      split at h
      · cases h
      split at h <;> cases h

example : crdLine plainEnv true 3 start "11 28800.0 x".toList = .err (.noTimeOfFlight 3) := rfl

/-! ### Cases -/

example : Broken "11 BROKEN".toList := ⟨["BROKEN".toList], by decide +kernel, by decide +kernel⟩
example : ¬ Broken "11 28800.0 0.05123456789 std 0".toList := by
  rintro ⟨ws, h1, h2⟩
  have e : ranging "11 28800.0 0.05123456789 std 0".toList = some ["28800.0".toList, "0.05123456789".toList, "std".toList, "0".toList] := by decide +kernel
  rw [e] at h1
  cases h1
  revert h2
  decide +kernel

example : ∃ f, parseCrd plainEnv false "H2 GRAZ 7839 1 1 0\nH3 lageos1 1155 7603901 0 1\n11 BROKEN\nH8\n".toList = .ok f ∧
    f.stationName = "GRAZ".toList ∧ f.satelliteSic = 1155 ∧ f.points = [] := ⟨_, rfl, by decide +kernel, by decide +kernel, by decide +kernel⟩
example : plainEnv.dateOk 2024 1 1 = true ∧ (0 : ℚ) ≤ 28800 + 1 / 4 ∧ (28800 + 1 / 4 : ℚ) < 86400 := by decide +kernel
example : ∀ n : Nat, (28800 + 1 / 4 : ℚ) < n → (28800 + 1 / 4 : ℚ) < n - 1 / 2 / 10 ^ 9 := by
  intro n h
  have : 28800 < n := by
    have : (28800 : ℚ) < n := by linarith
    exact_mod_cast this
  have h2 : (28801 : ℚ) ≤ n := by exact_mod_cast this
  linarith

end Verif.Crd.Props
