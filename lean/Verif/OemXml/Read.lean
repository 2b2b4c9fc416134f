import Verif.OemXml.Spec
import Mathlib.Data.List.Induction
import Mathlib.Data.List.TakeWhile

/-! # The reader on the events of a document -/

namespace Verif.OemXml.Props
open Verif.Text Verif.OemXml
open _root_.Verif.OemXml.Spec (bare Field SegDoc Doc wrap pairs last number every FieldOk DocOk Passed Answers)

theorem loop_append (a b : List Ev) : ∀ s, loop s (a ++ b) = (loop s a).bind (fun s => loop s b) := by
  induction a with
  | nil => intro s; rfl
  | cons e es ih =>
    intro s
    rw [List.cons_append, loop, loop]
    cases step s e with
    | ok s' => exact ih s'
    | err _ => rfl
    | panic => rfl

/-- References, comments, declarations and empty elements make no difference. -/
theorem loop_passed (es : List Ev) : ∀ s, loop s es = loop s (es.filter (fun e => ¬ Passed e)) := by
  induction es with
  | nil => intro s; rfl
  | cons e es ih =>
    intro s
    by_cases h : Passed e
    · rw [List.filter_cons_of_neg (by simpa using h), ← ih]
      cases e <;> first | rfl | exact absurd h id
    · rw [List.filter_cons_of_pos (by simpa using h), loop, loop]
      cases step s e with
      | ok s' => exact ih s'
      | err _ => rfl
      | panic => rfl

theorem split_last (c : Char) (s : Str) : c ∉ s ∨ ∃ p x, s = p ++ c :: x ∧ c ∉ x := by
  induction s with
  | nil => exact Or.inl (by simp)
  | cons a s ih =>
    rcases ih with h | ⟨p, x, rfl, hx⟩
    · by_cases ha : a = c
      · exact Or.inr ⟨[], s, by rw [ha]; rfl, h⟩
      · exact Or.inl (by simp [Ne.symm ha, h])
    · exact Or.inr ⟨a :: p, x, rfl, hx⟩

theorem splitChar_ne (c : Char) (s : Str) : splitChar c s ≠ [] := by
  cases s with
  | nil => simp [splitChar]
  | cons a s =>
    rw [splitChar]
    split
    · simp
    · split <;> simp

theorem splitChar_mid (c : Char) (p x : Str) : splitChar c (p ++ c :: x) = splitChar c p ++ splitChar c x := by
  induction p with
  | nil => simp [splitChar]
  | cons a p ih =>
    rw [List.cons_append, splitChar, splitChar, ih]
    split
    · rfl
    · cases h : splitChar c p with
      | nil => exact absurd h (splitChar_ne c p)
      | cons b bs => rfl

theorem takeWhile_none {c : Char} {x : Str} (h : c ∉ x) : x.takeWhile (fun a => a != c) = x := by
  rw [List.takeWhile_eq_self_iff]
  intro a ha
  have : a ≠ c := fun e => h (by rw [← e]; exact ha)
  simpa using this

theorem localName_eq (name : Str) : localName name = bare name := by
  unfold localName bare
  rcases split_last ':' name with h | ⟨p, x, rfl, hx⟩
  · rw [splitChar_single h, takeWhile_none (by simpa using h)]
    simp
  · rw [splitChar_mid, splitChar_single hx, List.getLast?_append_of_ne_nil _ (by simp)]
    rw [List.reverse_append, List.reverse_cons, List.append_assoc, List.takeWhile_append]
    have hr : x.reverse.takeWhile (fun a => a != ':') = x.reverse := takeWhile_none (by simpa using hx)
    rw [hr, if_pos rfl]
    simp

theorem bare_prefixed {pre x : Str} (hp : pre = [] ∨ ∃ p, pre = p ++ [':']) (hx : ':' ∉ x) : localName (pre ++ x) = x := by
  unfold localName
  rcases hp with rfl | ⟨p, rfl⟩
  · rw [List.nil_append, splitChar_single hx]
    rfl
  · rw [List.append_assoc, List.singleton_append, splitChar_mid, splitChar_single hx, List.getLast?_append_of_ne_nil _ (by simp)]
    rfl

theorem lineFeeds_id {v : Str} (h : '\r' ∉ v) : lineFeeds v = v := by
  induction v with
  | nil => rfl
  | cons c t ih =>
    simp only [List.mem_cons, not_or] at h
    have hc : c ≠ '\r' := fun e => h.1 e.symm
    rw [lineFeeds, ih h.2]
    · rintro t' rfl
      exact absurd rfl hc
    · rintro rfl
      exact absurd rfl hc

/-! ### The value of the last run -/

/-- Writing pairs one after the other into a slot leaves the last one with the right key. -/
theorem fold_last {σ β : Type} (put : σ → Str → Str → σ) (get : σ → β) (key : Str) (val : Str → β)
    (h : ∀ s k v, get (put s k v) = if k = key then val v else get s) (s : σ) (ps : List (Str × Str)) :
    get (ps.foldl (fun s p => put s p.1 p.2) s) =
      match ((ps.filter (fun p => p.1 = key)).getLast?).map Prod.snd with
      | some v => val v
      | none => get s := by
  induction ps using List.reverseRecOn with
  | nil => rfl
  | append_singleton ps p ih =>
    rw [List.foldl_append, List.foldl_cons, List.foldl_nil, h, List.filter_append]
    by_cases hk : p.1 = key
    · rw [if_pos hk, List.filter_cons_of_pos (by simpa using hk), List.filter_nil, List.getLast?_concat]
      rfl
    · rw [if_neg hk, List.filter_cons_of_neg (by simpa using hk), List.filter_nil, List.append_nil, ih]

theorem answers_bind {α β : Type} {r : R α} {o : Option α} {f : α → R β} {g : α → Option β} (h : Answers r o)
    (hf : ∀ a, Answers (f a) (g a)) : Answers (r.bind f) (o.bind g) := by
  cases o with
  | none =>
    obtain ⟨e, rfl⟩ := h
    exact ⟨e, rfl⟩
  | some a =>
    have h' : r = .ok a := h
    rw [h']
    exact hf a

theorem answers_need {α : Type} (e : Str → Err) (o : Option α) (n : String) : Answers (need e o n) o := by
  cases o with
  | none => exact ⟨_, rfl⟩
  | some a => rfl

def vecPut (b : VecB) (fs : List Field) : VecB := (pairs fs).foldl (fun b p => vecField b p.1 p.2) b

macro "slot" : tactic => `(tactic| (intro s k v; unfold vecField; split_ifs <;> first | rfl | (rename_i h1 h2; exact absurd (h1.symm.trans h2) (by decide)) | simp_all))

theorem vec_epoch (fs : List Field) : (vecPut {} fs).epoch = (last "EPOCH" fs).bind Ccsds.isoToJd := by
  unfold vecPut
  rw [fold_last vecField VecB.epoch "EPOCH".toList Ccsds.isoToJd (by slot)]
  unfold last
  cases (((pairs fs).filter (fun p => p.1 = "EPOCH".toList)).getLast?).map Prod.snd <;> rfl

theorem vec_x (fs : List Field) : (vecPut {} fs).x = number "X" fs := by
  unfold vecPut
  rw [fold_last vecField VecB.x "X".toList parseFloat (by slot)]
  unfold number last
  cases (((pairs fs).filter (fun p => p.1 = "X".toList)).getLast?).map Prod.snd <;> rfl

theorem vec_y (fs : List Field) : (vecPut {} fs).y = number "Y" fs := by
  unfold vecPut
  rw [fold_last vecField VecB.y "Y".toList parseFloat (by slot)]
  unfold number last
  cases (((pairs fs).filter (fun p => p.1 = "Y".toList)).getLast?).map Prod.snd <;> rfl

theorem vec_z (fs : List Field) : (vecPut {} fs).z = number "Z" fs := by
  unfold vecPut
  rw [fold_last vecField VecB.z "Z".toList parseFloat (by slot)]
  unfold number last
  cases (((pairs fs).filter (fun p => p.1 = "Z".toList)).getLast?).map Prod.snd <;> rfl

theorem vec_vx (fs : List Field) : (vecPut {} fs).vx = number "X_DOT" fs := by
  unfold vecPut
  rw [fold_last vecField VecB.vx "X_DOT".toList parseFloat (by slot)]
  unfold number last
  cases (((pairs fs).filter (fun p => p.1 = "X_DOT".toList)).getLast?).map Prod.snd <;> rfl

theorem vec_vy (fs : List Field) : (vecPut {} fs).vy = number "Y_DOT" fs := by
  unfold vecPut
  rw [fold_last vecField VecB.vy "Y_DOT".toList parseFloat (by slot)]
  unfold number last
  cases (((pairs fs).filter (fun p => p.1 = "Y_DOT".toList)).getLast?).map Prod.snd <;> rfl

theorem vec_vz (fs : List Field) : (vecPut {} fs).vz = number "Z_DOT" fs := by
  unfold vecPut
  rw [fold_last vecField VecB.vz "Z_DOT".toList parseFloat (by slot)]
  unfold number last
  cases (((pairs fs).filter (fun p => p.1 = "Z_DOT".toList)).getLast?).map Prod.snd <;> rfl

/-- A vector is built from the last runs. -/
theorem build_answers (fs : List Field) : Answers (build (vecPut {} fs)) (Spec.vector fs) := by
  unfold build Spec.vector
  rw [vec_epoch, vec_x, vec_y, vec_z, vec_vx, vec_vy, vec_vz]
  refine answers_bind (answers_need _ _ _) fun t => ?_
  refine answers_bind (answers_need _ _ _) fun x => ?_
  refine answers_bind (answers_need _ _ _) fun y => ?_
  refine answers_bind (answers_need _ _ _) fun z => ?_
  refine answers_bind (answers_need _ _ _) fun vx => ?_
  refine answers_bind (answers_need _ _ _) fun vy => ?_
  refine answers_bind (answers_need _ _ _) fun vz => ?_
  exact rfl

def infoPut (b : Ccsds.MetaBuilder) (fs : List Field) : Ccsds.MetaBuilder := (pairs fs).foldl (fun b p => Ccsds.metaField b p.1 p.2) b

macro "slot'" : tactic => `(tactic| (intro s k v; unfold Ccsds.metaField; split_ifs <;> first | rfl | (rename_i h1 h2; exact absurd (h1.symm.trans h2) (by decide)) | simp_all))

theorem info_objectId (fs : List Field) : (infoPut {} fs).objectId = last "OBJECT_ID" fs := by
  unfold infoPut
  rw [fold_last Ccsds.metaField Ccsds.MetaBuilder.objectId "OBJECT_ID".toList some (by slot')]
  unfold last
  cases (((pairs fs).filter (fun p => p.1 = "OBJECT_ID".toList)).getLast?).map Prod.snd <;> rfl

theorem info_objectName (fs : List Field) : (infoPut {} fs).objectName = last "OBJECT_NAME" fs := by
  unfold infoPut
  rw [fold_last Ccsds.metaField Ccsds.MetaBuilder.objectName "OBJECT_NAME".toList some (by slot')]
  unfold last
  cases (((pairs fs).filter (fun p => p.1 = "OBJECT_NAME".toList)).getLast?).map Prod.snd <;> rfl

theorem info_refFrame (fs : List Field) : (infoPut {} fs).refFrame = last "REF_FRAME" fs := by
  unfold infoPut
  rw [fold_last Ccsds.metaField Ccsds.MetaBuilder.refFrame "REF_FRAME".toList some (by slot')]
  unfold last
  cases (((pairs fs).filter (fun p => p.1 = "REF_FRAME".toList)).getLast?).map Prod.snd <;> rfl

theorem info_timeSystem (fs : List Field) : (infoPut {} fs).timeSystem = last "TIME_SYSTEM" fs := by
  unfold infoPut
  rw [fold_last Ccsds.metaField Ccsds.MetaBuilder.timeSystem "TIME_SYSTEM".toList some (by slot')]
  unfold last
  cases (((pairs fs).filter (fun p => p.1 = "TIME_SYSTEM".toList)).getLast?).map Prod.snd <;> rfl

theorem info_centerName (fs : List Field) : (infoPut {} fs).centerName = last "CENTER_NAME" fs := by
  unfold infoPut
  rw [fold_last Ccsds.metaField Ccsds.MetaBuilder.centerName "CENTER_NAME".toList some (by slot')]
  unfold last
  cases (((pairs fs).filter (fun p => p.1 = "CENTER_NAME".toList)).getLast?).map Prod.snd <;> rfl

theorem info_answers (fs : List Field) : Answers (buildMeta (infoPut {} fs)) (Spec.info fs) := by
  unfold buildMeta Spec.info
  rw [info_objectId, info_objectName, info_refFrame, info_timeSystem, info_centerName]
  refine answers_bind (answers_need _ _ _) fun a => ?_
  refine answers_bind (answers_need _ _ _) fun b => ?_
  refine answers_bind (answers_need _ _ _) fun c => ?_
  refine answers_bind (answers_need _ _ _) fun d => ?_
  refine answers_bind (answers_need _ _ _) fun e => ?_
  exact rfl

/-! ### Elements -/

theorem start_field {s : St} {f : Field} (h : FieldOk f) : onStart s f.name f.attrs = { s with tag := some (bare f.name) } := by
  obtain ⟨h1, h2, h3, -⟩ := h
  unfold onStart
  simp only [localName_eq]
  rw [if_neg h1, if_neg h2, if_neg h3]

theorem stop_field {s : St} {f : Field} (h : FieldOk f) : onStop s f.name = .ok { s with tag := none } := by
  obtain ⟨-, h2, h3, -⟩ := h
  unfold onStop
  simp only [localName_eq]
  rw [if_neg h3, if_neg h2]

/-- The runs of an element, whatever the reader does with them. -/
theorem loop_runs (s : St) (rest : List Ev) (vs : List Str) (h : ∀ v ∈ vs, '\r' ∉ v) :
    loop s (vs.map Ev.text ++ rest) = loop (vs.foldl onText s) rest := by
  induction vs generalizing s with
  | nil => rfl
  | cons v vs ih =>
    rw [List.map_cons, List.cons_append, loop]
    have : step s (Ev.text v) = .ok (onText s v) := by
      rw [step, lineFeeds_id (h v List.mem_cons_self)]
    rw [this]
    exact ih _ (fun w hw => h w (List.mem_cons_of_mem _ hw))

theorem loop_field {s : St} {f : Field} (hf : FieldOk f) (rest : List Ev) :
    loop s (f.events ++ rest) = loop { f.runs.foldl onText { s with tag := some (bare f.name) } with tag := none } rest := by
  unfold Field.events
  rw [List.cons_append, loop, step, start_field hf, List.append_assoc]
  simp only [Res.bind]
  rw [loop_runs _ _ _ hf.2.2.2, List.singleton_append, loop, step, stop_field hf]
  rfl

theorem runs_vec (s : St) (g : SegB) (t : Str) : ∀ (vs : List Str) (b : VecB),
    vs.foldl onText { s with seg := some { g with cur := some b }, tag := some t } =
      { s with seg := some { g with cur := some ((vs.map (fun v => (t, v))).foldl (fun b p => vecField b p.1 p.2) b) }, tag := some t } := by
  intro vs
  induction vs with
  | nil => intro b; rfl
  | cons v vs ih => intro b; exact ih (vecField b t v)

theorem runs_info (s : St) (g : SegB) (hg : g.cur = none) (t : Str) : ∀ (vs : List Str) (b : Ccsds.MetaBuilder),
    vs.foldl onText { s with seg := some { g with info := b }, tag := some t } =
      { s with seg := some { g with info := (vs.map (fun v => (t, v))).foldl (fun b p => Ccsds.metaField b p.1 p.2) b }, tag := some t } := by
  intro vs
  induction vs with
  | nil => intro b; rfl
  | cons v vs ih =>
    intro b
    rw [List.foldl_cons, List.map_cons, List.foldl_cons, ← ih]
    congr 1
    unfold onText
    simp only [hg]

theorem pairs_cons (f : Field) (fs : List Field) : pairs (f :: fs) = f.runs.map (fun v => (bare f.name, v)) ++ pairs fs := rfl

theorem loop_vec_fields (s : St) (g : SegB) (rest : List Ev) : ∀ (fs : List Field), (∀ f ∈ fs, FieldOk f) → ∀ (b : VecB) (t : Option Str),
    ∃ t', loop { s with seg := some { g with cur := some b }, tag := t } (fs.flatMap Field.events ++ rest) =
      loop { s with seg := some { g with cur := some (vecPut b fs) }, tag := t' } rest := by
  intro fs
  induction fs with
  | nil => intro _ b t; exact ⟨t, rfl⟩
  | cons f fs ih =>
    intro hf b t
    obtain ⟨t', hi⟩ := ih (fun f' h' => hf f' (List.mem_cons_of_mem _ h'))
      ((f.runs.map (fun v => (bare f.name, v))).foldl (fun b p => vecField b p.1 p.2) b) none
    refine ⟨t', ?_⟩
    rw [List.flatMap_cons, List.append_assoc, loop_field (hf f List.mem_cons_self)]
    have := runs_vec s g (bare f.name) f.runs b
    rw [show ({ ({ s with seg := some { g with cur := some b }, tag := t } : St) with tag := some (bare f.name) } : St) =
      { s with seg := some { g with cur := some b }, tag := some (bare f.name) } from rfl, this]
    unfold vecPut at hi ⊢
    rw [pairs_cons, List.foldl_append, ← hi]

theorem loop_info_fields (s : St) (g : SegB) (hg : g.cur = none) (rest : List Ev) : ∀ (fs : List Field), (∀ f ∈ fs, FieldOk f) →
    ∀ (b : Ccsds.MetaBuilder) (t : Option Str),
    ∃ t', loop { s with seg := some { g with info := b }, tag := t } (fs.flatMap Field.events ++ rest) =
      loop { s with seg := some { g with info := infoPut b fs }, tag := t' } rest := by
  intro fs
  induction fs with
  | nil => intro _ b t; exact ⟨t, rfl⟩
  | cons f fs ih =>
    intro hf b t
    obtain ⟨t', hi⟩ := ih (fun f' h' => hf f' (List.mem_cons_of_mem _ h'))
      ((f.runs.map (fun v => (bare f.name, v))).foldl (fun b p => Ccsds.metaField b p.1 p.2) b) none
    refine ⟨t', ?_⟩
    rw [List.flatMap_cons, List.append_assoc, loop_field (hf f List.mem_cons_self)]
    have := runs_info s g hg (bare f.name) f.runs b
    rw [show ({ ({ s with seg := some { g with info := b }, tag := t } : St) with tag := some (bare f.name) } : St) =
      { s with seg := some { g with info := b }, tag := some (bare f.name) } from rfl, this]
    unfold infoPut at hi ⊢
    rw [pairs_cons, List.foldl_append, ← hi]

/-- Outside a segment only two elements matter. -/
def headPut (p : Str × Str) (k v : Str) : Str × Str :=
  if k = "CREATION_DATE".toList then (v, p.2) else if k = "ORIGINATOR".toList then (p.1, v) else p

theorem runs_head (s : St) (hs : s.seg = none) (t : Str) : ∀ (vs : List Str) (p : Str × Str),
    vs.foldl onText { s with creation := p.1, originator := p.2, tag := some t } =
      { s with creation := ((vs.map (fun v => (t, v))).foldl (fun p q => headPut p q.1 q.2) p).1,
               originator := ((vs.map (fun v => (t, v))).foldl (fun p q => headPut p q.1 q.2) p).2, tag := some t } := by
  intro vs
  induction vs with
  | nil => intro p; rfl
  | cons v vs ih =>
    intro p
    rw [List.foldl_cons, List.map_cons, List.foldl_cons, ← ih]
    congr 1
    unfold onText headPut
    simp only [hs]
    split_ifs <;> rfl

theorem loop_head_fields (s : St) (hs : s.seg = none) (rest : List Ev) : ∀ (fs : List Field), (∀ f ∈ fs, FieldOk f) →
    ∀ (p : Str × Str) (t : Option Str),
    ∃ t', loop { s with creation := p.1, originator := p.2, tag := t } (fs.flatMap Field.events ++ rest) =
      loop { s with creation := ((pairs fs).foldl (fun p q => headPut p q.1 q.2) p).1,
                    originator := ((pairs fs).foldl (fun p q => headPut p q.1 q.2) p).2, tag := t' } rest := by
  intro fs
  induction fs with
  | nil => intro _ b t; exact ⟨t, rfl⟩
  | cons f fs ih =>
    intro hf p t
    obtain ⟨t', hi⟩ := ih (fun f' h' => hf f' (List.mem_cons_of_mem _ h'))
      ((f.runs.map (fun v => (bare f.name, v))).foldl (fun p q => headPut p q.1 q.2) p) none
    refine ⟨t', ?_⟩
    rw [List.flatMap_cons, List.append_assoc, loop_field (hf f List.mem_cons_self)]
    have := runs_head s hs (bare f.name) f.runs p
    rw [show ({ ({ s with creation := p.1, originator := p.2, tag := t } : St) with tag := some (bare f.name) } : St) =
      { s with creation := p.1, originator := p.2, tag := some (bare f.name) } from rfl, this]
    rw [pairs_cons, List.foldl_append, ← hi]

theorem head_creation (fs : List Field) : ((pairs fs).foldl (fun p q => headPut p q.1 q.2) ([], [])).1 = (last "CREATION_DATE" fs).getD [] := by
  rw [fold_last headPut Prod.fst "CREATION_DATE".toList id (by
    intro s k v; unfold headPut; split_ifs <;> rfl)]
  unfold last
  cases (((pairs fs).filter (fun p => p.1 = "CREATION_DATE".toList)).getLast?).map Prod.snd <;> rfl

theorem head_originator (fs : List Field) : ((pairs fs).foldl (fun p q => headPut p q.1 q.2) ([], [])).2 = (last "ORIGINATOR" fs).getD [] := by
  rw [fold_last headPut Prod.snd "ORIGINATOR".toList id (by
    intro s k v; unfold headPut; split_ifs with h1 h2 <;> first | rfl | (exact absurd (h1.symm.trans h2) (by decide)))]
  unfold last
  cases (((pairs fs).filter (fun p => p.1 = "ORIGINATOR".toList)).getLast?).map Prod.snd <;> rfl

/-! ### Structure -/

section Structure
variable {pre : Str} (hp : pre = [] ∨ ∃ p, pre = p ++ [':'])
include hp

theorem start_plain {x : Str} (hx : ':' ∉ x) (h1 : x ≠ "oem".toList) (h2 : x ≠ "segment".toList) (h3 : x ≠ "stateVector".toList) (s : St)
    (rest : List Ev) : loop s (.start (pre ++ x) [] :: rest) = loop { s with tag := some x } rest := by
  rw [loop, step, onStart]
  simp only [bare_prefixed hp hx]
  rw [if_neg h1, if_neg h2, if_neg h3]
  rfl

theorem stop_plain {x : Str} (hx : ':' ∉ x) (h2 : x ≠ "segment".toList) (h3 : x ≠ "stateVector".toList) (s : St)
    (rest : List Ev) : loop s (.stop (pre ++ x) :: rest) = loop { s with tag := none } rest := by
  rw [loop, step, onStop]
  simp only [bare_prefixed hp hx]
  rw [if_neg h3, if_neg h2]
  rfl

/-- One state vector, followed by anything. -/
theorem loop_vector (s : St) (g : SegB) (fs : List Field) (hf : ∀ f ∈ fs, FieldOk f) (t : Option Str) (rest : List Ev) :
    (∀ st, Spec.vector fs = some st →
      loop { s with seg := some g, tag := t } (wrap (pre ++ "stateVector".toList) (fs.flatMap Field.events) ++ rest) =
        loop { s with seg := some { g with states := g.states ++ [st], cur := none }, tag := none } rest) ∧
    (Spec.vector fs = none → ∃ e,
      loop { s with seg := some g, tag := t } (wrap (pre ++ "stateVector".toList) (fs.flatMap Field.events) ++ rest) = .err e) := by
  unfold wrap
  have hx : ':' ∉ "stateVector".toList := by decide
  obtain ⟨t', ht⟩ := loop_vec_fields s g ([.stop (pre ++ "stateVector".toList)] ++ rest) fs hf {} (some "stateVector".toList)
  have h0 : loop { s with seg := some g, tag := t } (.start (pre ++ "stateVector".toList) [] :: (fs.flatMap Field.events ++ [.stop (pre ++ "stateVector".toList)]) ++ rest) =
      (build (vecPut {} fs)).bind (fun st => loop { s with seg := some { g with states := g.states ++ [st], cur := none }, tag := none } rest) := by
    rw [List.cons_append, loop, step, onStart]
    simp only [bare_prefixed hp hx]
    rw [if_neg (by decide), if_neg (by decide), if_pos trivial]
    simp only [Option.map_some, Res.bind, List.append_assoc]
    rw [ht, List.singleton_append, loop, step, onStop]
    simp only [bare_prefixed hp hx, if_true]
    cases build (vecPut {} fs) <;> rfl
  rw [h0]
  have hb := build_answers fs
  constructor
  · intro st hst
    rw [hst] at hb
    rw [show build (vecPut {} fs) = .ok st from hb]
    rfl
  · intro hn
    rw [hn] at hb
    obtain ⟨e, he⟩ := hb
    exact ⟨e, by rw [he]; rfl⟩

theorem loop_vectors (s : St) (rest : List Ev) : ∀ (vs : List (List Field)), (∀ v ∈ vs, ∀ f ∈ v, FieldOk f) → ∀ (g : SegB), g.cur = none → ∀ (t : Option Str),
    (∀ sts, every Spec.vector vs = some sts → ∃ t',
      loop { s with seg := some g, tag := t } (vs.flatMap (fun v => wrap (pre ++ "stateVector".toList) (v.flatMap Field.events)) ++ rest) =
        loop { s with seg := some { g with states := g.states ++ sts }, tag := t' } rest) ∧
    (every Spec.vector vs = none → ∃ e,
      loop { s with seg := some g, tag := t } (vs.flatMap (fun v => wrap (pre ++ "stateVector".toList) (v.flatMap Field.events)) ++ rest) = .err e) := by
  intro vs
  induction vs with
  | nil =>
    intro _ g _ t
    refine ⟨fun sts h => ⟨t, ?_⟩, fun h => by simp [every] at h⟩
    have : sts = [] := by simpa [every] using h.symm
    subst this
    simp
  | cons v vs ih =>
    intro hv g hg t
    have h1 := loop_vector hp s g v (hv v List.mem_cons_self) t (vs.flatMap (fun v => wrap (pre ++ "stateVector".toList) (v.flatMap Field.events)) ++ rest)
    rw [List.flatMap_cons, List.append_assoc]
    cases hvec : Spec.vector v with
    | none =>
      refine ⟨fun sts h => ?_, fun _ => h1.2 hvec⟩
      rw [every, hvec] at h
      cases h
    | some st =>
      rw [h1.1 st hvec]
      have hi := ih (fun v' h' => hv v' (List.mem_cons_of_mem _ h')) { g with states := g.states ++ [st], cur := none } rfl none
      constructor
      · intro sts h
        rw [every, hvec] at h
        cases hrest : every Spec.vector vs with
        | none => rw [hrest] at h; cases h
        | some sts' =>
          rw [hrest] at h
          have : st :: sts' = sts := by simpa using h
          subst this
          obtain ⟨t', ht'⟩ := hi.1 sts' hrest
          refine ⟨t', ?_⟩
          rw [ht']
          simp [hg]
      · intro h
        rw [every, hvec] at h
        cases hrest : every Spec.vector vs with
        | none => exact hi.2 hrest
        | some sts' => rw [hrest] at h; cases h

/-- One segment, followed by anything. -/
theorem loop_segment (s : St) (g : SegDoc) (hi : ∀ f ∈ g.info, FieldOk f) (hv : ∀ v ∈ g.vectors, ∀ f ∈ v, FieldOk f) (rest : List Ev) :
    (∀ seg, Spec.segment g = some seg →
      loop s (SegDoc.events pre g ++ rest) = loop { s with segments := s.segments ++ [seg], seg := none, tag := none } rest) ∧
    (Spec.segment g = none → ∃ e, loop s (SegDoc.events pre g ++ rest) = .err e) := by
  have hx : ':' ∉ "segment".toList := by decide
  let tail2 : List Ev := .stop (pre ++ "data".toList) :: .stop (pre ++ "segment".toList) :: rest
  let vecs := g.vectors.flatMap (fun v => wrap (pre ++ "stateVector".toList) (v.flatMap Field.events))
  let tail1 : List Ev := .stop (pre ++ "metadata".toList) :: .start (pre ++ "data".toList) [] :: (vecs ++ tail2)
  obtain ⟨t', ht⟩ := loop_info_fields s {} rfl tail1 g.info hi {} (some "metadata".toList)
  have e1 : loop s (SegDoc.events pre g ++ rest) =
      loop { s with seg := some { info := infoPut {} g.info }, tag := some "data".toList } (vecs ++ tail2) := by
    have : SegDoc.events pre g ++ rest = .start (pre ++ "segment".toList) [] :: .start (pre ++ "metadata".toList) [] ::
        (g.info.flatMap Field.events ++ tail1) := by
      simp [SegDoc.events, wrap, tail1, tail2, vecs]
    rw [this, loop, step, onStart]
    simp only [bare_prefixed hp hx]
    rw [if_neg (by decide), if_pos trivial]
    simp only [Res.bind]
    rw [start_plain hp (by decide) (by decide) (by decide) (by decide)]
    rw [ht]
    rw [stop_plain hp (by decide) (by decide) (by decide), start_plain hp (by decide) (by decide) (by decide) (by decide)]
  rw [e1]
  have hvs := loop_vectors hp s tail2 g.vectors hv { info := infoPut {} g.info } rfl (some "data".toList)
  have hb := info_answers g.info
  have e2 : ∀ sts t'', loop { s with seg := some { info := infoPut {} g.info, states := sts }, tag := t'' } tail2 =
      (buildMeta (infoPut {} g.info)).bind (fun m => loop { s with segments := s.segments ++ [⟨m, sts⟩], seg := none, tag := none } rest) := by
    intro sts t''
    simp only [tail2]
    rw [stop_plain hp (by decide) (by decide) (by decide), loop, step, onStop]
    simp only [bare_prefixed hp hx]
    rw [if_neg (by decide)]
    simp only [if_true]
    cases buildMeta (infoPut {} g.info) <;> rfl
  unfold Spec.segment
  cases hev : every Spec.vector g.vectors with
  | none => exact ⟨fun seg h => (by cases h), fun _ => hvs.2 hev⟩
  | some sts =>
    obtain ⟨t'', h''⟩ := hvs.1 sts hev
    rw [h'']
    simp only [List.nil_append]
    rw [e2]
    cases hm : Spec.info g.info with
    | none =>
      rw [hm] at hb
      obtain ⟨e, he⟩ := hb
      exact ⟨fun seg h => (by cases h), fun _ => ⟨e, by rw [he]; rfl⟩⟩
    | some m =>
      rw [hm] at hb
      rw [show buildMeta (infoPut {} g.info) = .ok m from hb]
      refine ⟨fun seg h => ?_, fun h => by cases h⟩
      have : (⟨m, sts⟩ : Segment) = seg := by simpa using h
      subst this
      rfl

theorem loop_segments (rest : List Ev) : ∀ (gs : List SegDoc), (∀ g ∈ gs, ∀ f ∈ g.info, FieldOk f) →
    (∀ g ∈ gs, ∀ v ∈ g.vectors, ∀ f ∈ v, FieldOk f) → ∀ (s : St), s.seg = none →
    (∀ segs, every Spec.segment gs = some segs → ∃ t',
      loop s (gs.flatMap (SegDoc.events pre) ++ rest) = loop { s with segments := s.segments ++ segs, tag := t' } rest) ∧
    (every Spec.segment gs = none → ∃ e, loop s (gs.flatMap (SegDoc.events pre) ++ rest) = .err e) := by
  intro gs
  induction gs with
  | nil =>
    intro _ _ s _
    refine ⟨fun segs h => ⟨s.tag, ?_⟩, fun h => by simp [every] at h⟩
    have : segs = [] := by simpa [every] using h.symm
    subst this
    simp
  | cons g gs ih =>
    intro h1 h2 s hs
    have hg := loop_segment hp s g (h1 g List.mem_cons_self) (h2 g List.mem_cons_self) (gs.flatMap (SegDoc.events pre) ++ rest)
    rw [List.flatMap_cons, List.append_assoc]
    cases hseg : Spec.segment g with
    | none =>
      refine ⟨fun segs h => ?_, fun _ => hg.2 hseg⟩
      rw [every, hseg] at h
      cases h
    | some seg =>
      rw [hg.1 seg hseg]
      have hi := ih (fun g' h' => h1 g' (List.mem_cons_of_mem _ h')) (fun g' h' => h2 g' (List.mem_cons_of_mem _ h'))
        { s with segments := s.segments ++ [seg], seg := none, tag := none } rfl
      constructor
      · intro segs h
        rw [every, hseg] at h
        cases hrest : every Spec.segment gs with
        | none => rw [hrest] at h; cases h
        | some segs' =>
          rw [hrest] at h
          have : seg :: segs' = segs := by simpa using h
          subst this
          obtain ⟨t', ht'⟩ := hi.1 segs' hrest
          refine ⟨t', ?_⟩
          rw [ht']
          simp [hs]
      · intro h
        rw [every, hseg] at h
        cases hrest : every Spec.segment gs with
        | none => exact hi.2 hrest
        | some segs' => rw [hrest] at h; cases h

end Structure

theorem version_last (attrs : List (Str × Str)) (v : Str) :
    lastVersion attrs v = (((attrs.filter (fun a => a.1 = "version".toList)).getLast?).map Prod.snd).getD v := by
  have := fold_last (σ := Str) (fun s k v => if k = "version".toList then v else s) id "version".toList id (fun s k v => rfl) v attrs
  unfold lastVersion
  simp only [id] at this
  rw [this]
  cases ((attrs.filter (fun a => a.1 = "version".toList)).getLast?).map Prod.snd <;> rfl

/-- **C210** The reader answers what the document says: every segment with its metadata and vectors in order, each value
the last run of text in the last element of its name; if a field is missing or unreadable, or there is no segment, an
error.  Never a panic.  References, comments and the like in between make no difference. -/
theorem read_document (d : Doc) (hd : DocOk d) (es : List Ev) (he : es.filter (fun e => ¬ Passed e) = d.events) :
    Answers (readEvents es) (Spec.file d) := by
  unfold readEvents
  rw [loop_passed, he]
  have hp := hd.pre
  have hx : ':' ∉ "oem".toList := by decide
  let tail2 : List Ev := [.stop (d.pre ++ "body".toList), .stop (d.pre ++ "oem".toList)]
  let tail1 : List Ev := .stop (d.pre ++ "header".toList) :: .start (d.pre ++ "body".toList) [] :: (d.segments.flatMap (SegDoc.events d.pre) ++ tail2)
  obtain ⟨t', ht⟩ := loop_head_fields { version := lastVersion d.attrs "3.0".toList } rfl tail1 d.header hd.header ([], []) (some "header".toList)
  rw [head_creation, head_originator] at ht
  have e1 : loop {} d.events = loop { version := lastVersion d.attrs "3.0".toList, creation := (last "CREATION_DATE" d.header).getD [], originator := (last "ORIGINATOR" d.header).getD [], tag := some "body".toList } (d.segments.flatMap (SegDoc.events d.pre) ++ tail2) := by
    have : d.events = .start (d.pre ++ "oem".toList) d.attrs :: .start (d.pre ++ "header".toList) [] :: (d.header.flatMap Field.events ++ tail1) := by
      simp [Doc.events, wrap, tail1, tail2]
    rw [this, loop, step, onStart]
    simp only [bare_prefixed hp hx, if_true]
    simp only [Res.bind]
    rw [start_plain hp (by decide) (by decide) (by decide) (by decide)]
    refine Eq.trans ht ?_
    rw [stop_plain hp (by decide) (by decide) (by decide), start_plain hp (by decide) (by decide) (by decide) (by decide)]
  rw [e1]
  obtain ⟨hs1, hs2⟩ := loop_segments hp tail2 d.segments hd.info hd.vectors { version := lastVersion d.attrs "3.0".toList, creation := (last "CREATION_DATE" d.header).getD [], originator := (last "ORIGINATOR" d.header).getD [], tag := some "body".toList } rfl
  unfold Spec.file
  cases hev : every Spec.segment d.segments with
  | none =>
    obtain ⟨e, he'⟩ := hs2 hev
    rw [he']
    exact ⟨e, rfl⟩
  | some segs =>
    obtain ⟨t'', ht''⟩ := hs1 segs hev
    rw [ht'', stop_plain hp (by decide) (by decide) (by decide), stop_plain hp (by decide) (by decide) (by decide), loop]
    simp only [Res.bind, List.nil_append, Option.bind_some, finish, version_last]
    by_cases h0 : segs = []
    · rw [if_pos h0, if_pos h0]
      exact ⟨_, rfl⟩
    · rw [if_neg h0, if_neg h0]
      rfl

end Verif.OemXml.Props
