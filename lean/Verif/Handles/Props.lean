import Verif.Handles.Model
import Mathlib.Data.List.Basic
import Mathlib.Tactic.Linarith
import Mathlib.Tactic.NormNum

/-!
# Handles of the C interface: what a client may rely on
-/

namespace Verif.Handles

open Verif.Ffi (Addr Status F64)

variable {E T : Type}

/-! ## Client programs -/

/-- Everything outside the handle functions. -/
structure Lib (E T : Type) where
  load : String → Option E
  parse : List UInt8 → Option E
  toEpoch : Rat → T
  toJd : T → Rat
  checkJd : F64 → Option T
  ask : E → Body → Centre → T → Except EphErr (Rat × Rat × Rat)
  gmEarth : Rat
  dop : Integrator E T

/-- The types of handles. -/
inductive Kind
  | ephemeris | context | state | propagator
  deriving DecidableEq

/-- One call of a client. A handle is named by the number of the creation that returned it; `none` is a null
pointer; a `Bool` says whether a pointer to the client's own memory is non-null. -/
inductive Op (E T : Type)
  | loadBsp (text : Option String) (path out : Bool)
  | loadBytes (bytes : List UInt8) (data out : Bool)
  | contextNew (out : Bool)
  | stateNew (jd x y z vx vy vz : F64) (out : Bool)
  | propagatorEarth (out : Bool)
  | propagatorNew (gm : F64) (out : Bool)
  | withEphemeris (c e : Option Nat)
  | withAtmosphere (c : Option Nat) (vtable : Option (Rat → F64))
  | withGravity (c : Option Nat) (vtable : Option Gravity)
  | position (s : Option Nat) (ox oy oz : Bool)
  | velocity (s : Option Nat) (ox oy oz : Bool)
  | epoch (s : Option Nat) (out : Bool)
  | propagate (p s : Option Nat) (dt : F64) (c : Option Nat) (out : Bool)
  | query (f : Entry) (e : Option Nat) (jd : F64) (out : Bool)
  | free (k : Kind) (i : Option Nat)

/-- What the client sees of a call. -/
inductive Obs
  | status (s : Status)
  | dstatus (s : DStatus)
  | vec (s : Status) (v : Option (Rat × Rat × Rat))
  | time (s : Status) (t : Option Rat)
  | pos (s : Status) (p : Option Pos)
  | void

/-- A pointer to the client's memory. -/
def ptr (b : Bool) : Addr := if b then 1 else 0

/-- The pointer the client passes for a handle. -/
def arg (env : List Addr) : Option Nat → Addr
  | none => 0
  | some i => env.getD i 0

/-- After a creation: the address returned, if any, is kept. -/
def created (env : List Addr) (r : Status × Heap E T × Option Addr) : Obs × Heap E T × List Addr :=
  (.status r.1, r.2.1, env ++ r.2.2.toList)

/-- One call on the real heap; `none` is undefined behaviour. -/
def step (A : Alloc E T) (L : Lib E T) (h : Heap E T) (env : List Addr) : Op E T → Option (Obs × Heap E T × List Addr)
  | .loadBsp text path out => some (created env (loadBsp A (ptr path) (ptr out) text L.load h))
  | .loadBytes bytes data out => some (created env (loadBytes A (ptr data) (ptr out) bytes L.parse h))
  | .contextNew out => some (created env (contextNew A (ptr out) h))
  | .stateNew jd x y z vx vy vz out => some (created env (stateNew A L.toEpoch jd x y z vx vy vz (ptr out) h))
  | .propagatorEarth out => some (created env (propagatorEarth A L.gmEarth (ptr out) h))
  | .propagatorNew gm out => some (created env (propagatorNew A gm (ptr out) h))
  | .withEphemeris c e => (withEphemeris (arg env c) (arg env e) h).map fun r => (.status r.1, r.2, env)
  | .withAtmosphere c v => (withAtmosphere (arg env c) v h).map fun r => (.status r.1, r.2, env)
  | .withGravity c v => (withGravity (arg env c) v h).map fun r => (.status r.1, r.2, env)
  | .position s ox oy oz => (statePosition (arg env s) (ptr ox) (ptr oy) (ptr oz) h).map fun r => (.vec r.1 r.2, h, env)
  | .velocity s ox oy oz => (stateVelocity (arg env s) (ptr ox) (ptr oy) (ptr oz) h).map fun r => (.vec r.1 r.2, h, env)
  | .epoch s out => (stateEpoch L.toJd (arg env s) (ptr out) h).map fun r => (.time r.1 r.2, h, env)
  | .propagate p s dt c out => (propagate A L.dop (arg env p) (arg env s) dt (arg env c) (ptr out) h).map fun r =>
      (.dstatus r.1, r.2.1, env ++ r.2.2.toList)
  | .query f e jd out => (query f L.checkJd L.ask (arg env e) jd (ptr out) h).map fun r => (.pos r.1 r.2, h, env)
  | .free .ephemeris i => (freeEphemeris (arg env i) h).map fun h' => (.void, h', env)
  | .free .context i => (freeContext (arg env i) h).map fun h' => (.void, h', env)
  | .free .state i => (freeState (arg env i) h).map fun h' => (.void, h', env)
  | .free .propagator i => (freePropagator (arg env i) h).map fun h' => (.void, h', env)

/-- A whole program, with everything it sees. -/
def run (A : Alloc E T) (L : Lib E T) : Heap E T → List Addr → List (Op E T) → Option (List Obs × Heap E T × List Addr)
  | h, env, [] => some ([], h, env)
  | h, env, op :: ops =>
    (step A L h env op).bind fun r => (run A L r.2.1 r.2.2 ops).map fun q => (r.1 :: q.1, q.2.1, q.2.2)

/-! ## What the calls mean: a table of values without addresses -/

/-- The values made so far, in order; `none` after release. -/
abbrev Store (E T : Type) := List (Option (Obj E T))

/-- The live value with a number, if of the right type. -/
def ephOf (st : Store E T) (i : Nat) : Option E := match st[i]? with
  | some (some (.ephemeris e)) => some e
  | _ => none
def ctxOf (st : Store E T) (i : Nat) : Option (Context E) := match st[i]? with
  | some (some (.context c)) => some c
  | _ => none
def stateOf (st : Store E T) (i : Nat) : Option (State T) := match st[i]? with
  | some (some (.state s)) => some s
  | _ => none
def propOf (st : Store E T) (i : Nat) : Option Rat := match st[i]? with
  | some (some (.propagator g)) => some g
  | _ => none

/-- A new value or a refusal. -/
def make (st : Store E T) : Except Status (Obj E T) → Obs × Store E T
  | .error e => (.status e, st)
  | .ok v => (.status .ok, st ++ [some v])

/-- The value an orbit state is made of, or why not. -/
def stateValue (L : Lib E T) : F64 → F64 → F64 → F64 → F64 → F64 → F64 → Except Status (Obj E T)
  | .fin jd, .fin x, .fin y, .fin z, .fin vx, .fin vy, .fin vz => .ok (.state ⟨L.toEpoch jd, (x, y, z), (vx, vy, vz)⟩)
  | _, _, _, _, _, _, _ => .error .invalidArgument

/-- A strictly positive number. -/
def positive : F64 → Option Rat
  | .fin g => if 0 < g then some g else none
  | _ => none

/-- No context means an empty one. -/
def ctxArg (st : Store E T) : Option Nat → Option (Context E)
  | none => some ⟨none, none, none⟩
  | some i => ctxOf st i

/-- The end of a propagation. -/
def outcome (st : Store E T) : Option (Except DynErr (State T)) → Obs × Store E T
  | none => (.dstatus .internalPanic, st)
  | some (.error e) => (.dstatus (.ofError e), st)
  | some (.ok y) => (.dstatus .ok, st ++ [some (.state y)])

/-- An answer of an ephemeris. -/
def answer (f : Entry) : Except EphErr (Rat × Rat × Rat) → Obs
  | .error .outOfRange => .pos .outOfRange none
  | .error .invalidSegment => .pos .dataError none
  | .ok x => .pos .ok (some ⟨x, f.centre, f.unit⟩)

/-- The meaning of a call; `none` when the client uses a value released or of another type. -/
def meaning (L : Lib E T) (st : Store E T) : Op E T → Option (Obs × Store E T)
  | .loadBsp text path out => some <| make st <|
      if path && out then match text with
        | none => .error .invalidArgument
        | some s => match L.load s with
          | none => .error .dataError
          | some e => .ok (.ephemeris e)
      else .error .nullPointer
  | .loadBytes bytes data out => some <| make st <|
      if data && out then match L.parse bytes with
        | none => .error .dataError
        | some e => .ok (.ephemeris e)
      else .error .nullPointer
  | .contextNew out => some <| make st <| if out then .ok (.context ⟨none, none, none⟩) else .error .nullPointer
  | .stateNew jd x y z vx vy vz out => some <| make st <|
      if out then stateValue L jd x y z vx vy vz else .error .nullPointer
  | .propagatorEarth out => some <| make st <| if out then .ok (.propagator L.gmEarth) else .error .nullPointer
  | .propagatorNew gm out => some <| make st <|
      if out then match positive gm with
        | some g => .ok (.propagator g)
        | none => .error .invalidArgument
      else .error .nullPointer
  | .withEphemeris (some c) (some e) => (ephOf st e).bind fun v => (ctxOf st c).map fun x =>
      (.status .ok, st.set c (some (.context ⟨some v, x.atmosphere, x.gravity⟩)))
  | .withEphemeris _ _ => some (.status .nullPointer, st)
  | .withAtmosphere (some c) (some f) => (ctxOf st c).map fun x =>
      (.status .ok, st.set c (some (.context ⟨x.ephemeris, some f, x.gravity⟩)))
  | .withAtmosphere _ _ => some (.status .nullPointer, st)
  | .withGravity (some c) (some g) => (ctxOf st c).map fun x =>
      if (positive g.gm).isSome && (positive g.radius).isSome then
        (.status .ok, st.set c (some (.context ⟨x.ephemeris, x.atmosphere, some g⟩)))
      else (.status .invalidArgument, st)
  | .withGravity _ _ => some (.status .nullPointer, st)
  | .position (some s) true true true => (stateOf st s).map fun x => (.vec .ok (some x.r), st)
  | .position _ _ _ _ => some (.vec .nullPointer none, st)
  | .velocity (some s) true true true => (stateOf st s).map fun x => (.vec .ok (some x.v), st)
  | .velocity _ _ _ _ => some (.vec .nullPointer none, st)
  | .epoch (some s) true => (stateOf st s).map fun x => (.time .ok (some (L.toJd x.epoch)), st)
  | .epoch _ _ => some (.time .nullPointer none, st)
  | .propagate (some p) (some s) (.fin d) c true => (propOf st p).bind fun gm => (stateOf st s).bind fun x =>
      (ctxArg st c).map fun ctx => outcome st (L.dop gm x d ctx)
  | .propagate (some p) (some s) _ _ true => (propOf st p).bind fun _ => (stateOf st s).map fun _ =>
      (.dstatus .invalidStepRequest, st)
  | .propagate _ _ _ _ _ => some (.dstatus .nullPointer, st)
  | .query f (some e) jd true => (ephOf st e).map fun v =>
      match L.checkJd jd with
      | none => (.pos .invalidArgument none, st)
      | some t => (answer f (L.ask v f.body f.calls t), st)
  | .query _ _ _ _ => some (.pos .nullPointer none, st)
  | .free _ none => some (.void, st)
  | .free .ephemeris (some i) => (ephOf st i).map fun _ => (.void, st.set i none)
  | .free .context (some i) => (ctxOf st i).map fun _ => (.void, st.set i none)
  | .free .state (some i) => (stateOf st i).map fun _ => (.void, st.set i none)
  | .free .propagator (some i) => (propOf st i).map fun _ => (.void, st.set i none)

/-- The meaning of a program. -/
def meanings (L : Lib E T) : Store E T → List (Op E T) → Option (List Obs × Store E T)
  | st, [] => some ([], st)
  | st, op :: ops => (meaning L st op).bind fun r => (meanings L r.2 ops).map fun q => (r.1 :: q.1, q.2)

/-! ## Refinement -/

/-- The allocator finds a free address other than null as long as only finitely many are taken. -/
def AllocOk (A : Alloc E T) : Prop :=
  ∀ h : Heap E T, (∃ n, ∀ a, n ≤ a → h a = none) → A h ≠ 0 ∧ h (A h) = none

/-- There is such an allocator. -/
theorem alloc_exists : ∃ A : Alloc E T, AllocOk A := by
  classical
  refine ⟨fun h => if e : ∃ n, ∀ a, n ≤ a → h a = none then e.choose + 1 else 0, fun h hf => ?_⟩
  simp only [dif_pos hf]
  exact ⟨Nat.succ_ne_zero _, hf.choose_spec _ (Nat.le_succ _)⟩

/-- The heap holds exactly the live values, each at its own address. -/
structure Rel (h : Heap E T) (env : List Addr) (st : Store E T) : Prop where
  len : env.length = st.length
  live : ∀ (i : Nat) (o : Obj E T), st[i]? = some (some o) → ∃ a, env[i]? = some a ∧ a ≠ 0 ∧ h a = some o
  inj : ∀ (i j : Nat) (a : Addr) (o o' : Obj E T), st[i]? = some (some o) → st[j]? = some (some o') → env[i]? = some a → env[j]? = some a → i = j
  owned : ∀ (a : Addr) (o : Obj E T), h a = some o → ∃ i : Nat, env[i]? = some a ∧ st[i]? = some (some o)

theorem le_sum {a : Nat} : ∀ {l : List Nat}, a ∈ l → a ≤ l.sum
  | x :: l, h => by
    rw [List.sum_cons]
    rcases List.mem_cons.mp h with rfl | h
    · omega
    · have := le_sum h; omega

theorem Rel.bounded {h : Heap E T} {env : List Addr} {st : Store E T} (r : Rel h env st) :
    ∃ n, ∀ a, n ≤ a → h a = none := by
  refine ⟨env.sum + 1, fun a ha => ?_⟩
  cases e : h a with
  | none => rfl
  | some o =>
    obtain ⟨i, hi, _⟩ := r.owned a o e
    have h1 : a ≤ env.sum := le_sum (List.mem_of_getElem? hi)
    exact absurd (Nat.le_trans ha h1) (Nat.not_succ_le_self _)

theorem Rel.arg {h : Heap E T} {env : List Addr} {st : Store E T} (r : Rel h env st) {i : Nat} {o : Obj E T}
    (hi : st[i]? = some (some o)) : arg env (some i) ≠ 0 ∧ h (arg env (some i)) = some o := by
  obtain ⟨a, ha, h0, ho⟩ := r.live i o hi
  have : Handles.arg env (some i) = a := by
    show env.getD i 0 = a
    rw [List.getD_eq_getElem?_getD, ha]
    rfl
  rw [this]
  exact ⟨h0, ho⟩

theorem Rel.box {A : Alloc E T} (hA : AllocOk A) {h : Heap E T} {env : List Addr} {st : Store E T}
    (r : Rel h env st) (v : Obj E T) : Rel (box A h v).2 (env ++ [(box A h v).1]) (st ++ [some v]) := by
  obtain ⟨hne, hfree⟩ := hA h r.bounded
  have hnew : ∀ {i : Nat} {o : Obj E T}, st[i]? = some (some o) → env[i]? ≠ some (A h) := by
    intro i o hi he
    obtain ⟨a, ha, _, ho⟩ := r.live i o hi
    rw [he] at ha
    injection ha with ha
    rw [← ha, hfree] at ho
    cases ho
  have split : ∀ {i : Nat} {o : Obj E T}, (st ++ [some v])[i]? = some (some o) →
      (i < st.length ∧ st[i]? = some (some o)) ∨ (i = st.length ∧ o = v) := by
    intro i o hi
    rcases lt_trichotomy i st.length with hlt | heq | hgt
    · rw [List.getElem?_append_left hlt] at hi
      exact Or.inl ⟨hlt, hi⟩
    · subst heq
      simp at hi
      exact Or.inr ⟨rfl, hi.symm⟩
    · rw [List.getElem?_eq_none (by simp; omega)] at hi
      cases hi
  have esplit : ∀ {i : Nat}, i < st.length → (env ++ [A h])[i]? = env[i]? := fun hi =>
    List.getElem?_append_left (by rw [r.len]; exact hi)
  have elast : (env ++ [A h])[st.length]? = some (A h) := by
    rw [← r.len]; simp
  refine ⟨by simp [r.len], fun i o hi => ?_, fun i j a o o' hi hj ei ej => ?_, fun a o ha => ?_⟩
  · rcases split hi with ⟨hlt, hi⟩ | ⟨rfl, rfl⟩
    · obtain ⟨a, ea, h0, ho⟩ := r.live i o hi
      refine ⟨a, by show (env ++ [A h])[i]? = _; rw [esplit hlt]; exact ea, h0, ?_⟩
      show (if a = A h then some v else h a) = some o
      rw [if_neg, ho]
      rintro rfl
      rw [hfree] at ho
      cases ho
    · exact ⟨A h, elast, hne, if_pos rfl⟩
  · replace ei : (env ++ [A h])[i]? = some a := ei
    replace ej : (env ++ [A h])[j]? = some a := ej
    rcases split hi with ⟨hlt, hi'⟩ | ⟨rfl, _⟩ <;> rcases split hj with ⟨hlt', hj'⟩ | ⟨rfl, _⟩
    · rw [esplit hlt] at ei
      rw [esplit hlt'] at ej
      exact r.inj i j a o o' hi' hj' ei ej
    · rw [esplit hlt] at ei
      rw [elast] at ej
      exact absurd (by rw [ei, ← ej]) (hnew hi')
    · rw [elast] at ei
      rw [esplit hlt'] at ej
      exact absurd (by rw [ej, ← ei]) (hnew hj')
    · rfl
  · have ha : (if a = A h then some v else h a) = some o := ha
    split at ha
    · rename_i e
      injection ha with ha
      exact ⟨st.length, by rw [e]; exact elast, by simp [ha]⟩
    · obtain ⟨i, ei, hi⟩ := r.owned a o ha
      have hlt : i < st.length := (List.getElem?_eq_some_iff.mp hi).1
      exact ⟨i, by show (env ++ [A h])[i]? = _; rw [esplit hlt]; exact ei,
        by rw [List.getElem?_append_left hlt]; exact hi⟩

theorem Rel.update {h : Heap E T} {env : List Addr} {st : Store E T} (r : Rel h env st) {i : Nat} {o : Obj E T}
    (hi : st[i]? = some (some o)) (v : Option (Obj E T)) :
    Rel (fun a => if a = Handles.arg env (some i) then v else h a) env (st.set i v) := by
  obtain ⟨p, ep, hp0, hpo⟩ := r.live i o hi
  have harg : Handles.arg env (some i) = p := by
    show env.getD i 0 = p
    rw [List.getD_eq_getElem?_getD, ep]
    rfl
  rw [harg]
  have hlt : i < st.length := (List.getElem?_eq_some_iff.mp hi).1
  have old : ∀ {j : Nat} {w : Obj E T}, (st.set i v)[j]? = some (some w) → j ≠ i → st[j]? = some (some w) := by
    intro j w hj hne
    rwa [List.getElem?_set_ne (Ne.symm hne)] at hj
  have isLive : ∀ {j : Nat} {w : Obj E T}, (st.set i v)[j]? = some (some w) → ∃ w', st[j]? = some (some w') := by
    intro j w hj
    by_cases hne : j = i
    · exact ⟨o, hne ▸ hi⟩
    · exact ⟨w, old hj hne⟩
  refine ⟨by simp [r.len], fun j w hj => ?_, fun j k a w w' hj hk ej ek => ?_, fun a w ha => ?_⟩
  · by_cases hne : j = i
    · subst hne
      rw [List.getElem?_set_self hlt] at hj
      injection hj with hj
      exact ⟨p, ep, hp0, by simp [hj]⟩
    · have hj' := old hj hne
      obtain ⟨a, ea, h0, ho⟩ := r.live j w hj'
      refine ⟨a, ea, h0, ?_⟩
      rw [if_neg, ho]
      rintro rfl
      exact hne (r.inj j i a w o hj' hi ea ep)
  · obtain ⟨w1, h1⟩ := isLive hj
    obtain ⟨w2, h2⟩ := isLive hk
    exact r.inj j k a w1 w2 h1 h2 ej ek
  · by_cases e : a = p
    · subst e
      rw [if_pos rfl] at ha
      subst ha
      exact ⟨i, ep, by rw [List.getElem?_set_self hlt]⟩
    · rw [if_neg e] at ha
      obtain ⟨j, ej, hj⟩ := r.owned a w ha
      refine ⟨j, ej, ?_⟩
      rw [List.getElem?_set_ne, hj]
      rintro rfl
      rw [ep] at ej
      injection ej with ej
      exact e ej.symm

theorem ephOf_some {st : Store E T} {i : Nat} {e : E} (h : ephOf st i = some e) : st[i]? = some (some (.ephemeris e)) := by
  unfold ephOf at h
  split at h
  · rename_i hh; injection h with h; rw [hh, h]
  · cases h
theorem ctxOf_some {st : Store E T} {i : Nat} {e : Context E} (h : ctxOf st i = some e) :
    st[i]? = some (some (.context e)) := by
  unfold ctxOf at h
  split at h
  · rename_i hh; injection h with h; rw [hh, h]
  · cases h
theorem stateOf_some {st : Store E T} {i : Nat} {e : State T} (h : stateOf st i = some e) :
    st[i]? = some (some (.state e)) := by
  unfold stateOf at h
  split at h
  · rename_i hh; injection h with h; rw [hh, h]
  · cases h
theorem propOf_some {st : Store E T} {i : Nat} {e : Rat} (h : propOf st i = some e) :
    st[i]? = some (some (.propagator e)) := by
  unfold propOf at h
  split at h
  · rename_i hh; injection h with h; rw [hh, h]
  · cases h

variable {A : Alloc E T} {L : Lib E T} {h : Heap E T} {env : List Addr} {st : Store E T}

theorem Rel.eph (r : Rel h env st) {i : Nat} {e : E} (hi : ephOf st i = some e) :
    Handles.arg env (some i) ≠ 0 ∧ asEphemeris h (Handles.arg env (some i)) = some e := by
  obtain ⟨h0, ho⟩ := r.arg (ephOf_some hi)
  exact ⟨h0, by unfold asEphemeris; rw [ho]⟩
theorem Rel.ctx (r : Rel h env st) {i : Nat} {e : Context E} (hi : ctxOf st i = some e) :
    Handles.arg env (some i) ≠ 0 ∧ asContext h (Handles.arg env (some i)) = some e := by
  obtain ⟨h0, ho⟩ := r.arg (ctxOf_some hi)
  exact ⟨h0, by unfold asContext; rw [ho]⟩
theorem Rel.state (r : Rel h env st) {i : Nat} {e : State T} (hi : stateOf st i = some e) :
    Handles.arg env (some i) ≠ 0 ∧ asState h (Handles.arg env (some i)) = some e := by
  obtain ⟨h0, ho⟩ := r.arg (stateOf_some hi)
  exact ⟨h0, by unfold asState; rw [ho]⟩
theorem Rel.prop (r : Rel h env st) {i : Nat} {e : Rat} (hi : propOf st i = some e) :
    Handles.arg env (some i) ≠ 0 ∧ asPropagator h (Handles.arg env (some i)) = some e := by
  obtain ⟨h0, ho⟩ := r.arg (propOf_some hi)
  exact ⟨h0, by unfold asPropagator; rw [ho]⟩

/-- What has to be shown of one call. -/
def Refines (A : Alloc E T) (L : Lib E T) (h : Heap E T) (env : List Addr) (st : Store E T) (op : Op E T) : Prop :=
  ∀ obs st', meaning L st op = some (obs, st') →
    ∃ h' env', step A L h env op = some (obs, h', env') ∧ Rel h' env' st'

/-- A creation that yields a value or a refusal as it should. -/
theorem refines_make (hA : AllocOk A) (r : Rel h env st) (res : Status × Heap E T × Option Addr)
    (v : Except Status (Obj E T))
    (hres : res = match v with
      | .error e => (e, h, none)
      | .ok o => (.ok, (box A h o).2, some (box A h o).1)) (obs : Obs) (st' : Store E T)
    (hm : some (make st v) = some (obs, st')) :
    ∃ h' env', some (created env res) = some (obs, h', env') ∧ Rel h' env' st' := by
  injection hm with hm
  cases v with
  | error e =>
    simp only at hres
    subst hres
    unfold make at hm
    injection hm with h1 h2
    subst h1 h2
    exact ⟨h, env, by simp [created], r⟩
  | ok o =>
    simp only at hres
    subst hres
    unfold make at hm
    injection hm with h1 h2
    subst h1 h2
    exact ⟨_, _, rfl, r.box hA o⟩

theorem ptr_false : ptr false = 0 := rfl
theorem ptr_true : ptr true ≠ 0 := by decide

theorem positive_iff (x : F64) : (!finite x || notPositive x) = (positive x).isNone := by
  cases x with
  | fin a =>
    simp only [finite, notPositive, positive]
    by_cases h : 0 < a
    · simp [h, not_le.mpr h]
    · simp [h, not_lt.mp h]
  | _ => rfl

theorem same (r : Rel h env st) {o obs : Obs} {st' : Store E T} {res : Option (Obs × Heap E T × List Addr)}
    (hm : some (o, st) = some (obs, st')) (hs : res = some (o, h, env)) :
    ∃ h' env', res = some (obs, h', env') ∧ Rel h' env' st' := by
  injection hm with hm
  injection hm with h1 h2
  subst h1 h2
  exact ⟨h, env, hs, r⟩

theorem stateNew_value (L : Lib E T) (jd x y z vx vy vz : F64) (h : Heap E T) :
    stateNew A L.toEpoch jd x y z vx vy vz (ptr true) h = match stateValue L jd x y z vx vy vz with
      | .error e => (e, h, none)
      | .ok o => (.ok, (box A h o).2, some (box A h o).1) := by
  cases jd with
  | fin jd =>
    cases x with
    | fin x =>
      cases y with
      | fin y =>
        cases z with
        | fin z =>
          cases vx with
          | fin vx =>
            cases vy with
            | fin vy =>
              cases vz with
              | fin vz => rfl
              | _ => rfl
            | _ => rfl
          | _ => rfl
        | _ => rfl
      | _ => rfl
    | _ => rfl
  | _ => rfl

theorem conclude_outcome (hA : AllocOk A) (r : Rel h env st) (res : Option (Except DynErr (State T))) :
    ∃ h' env', (Obs.dstatus (conclude A h res).1, (conclude A h res).2.1, env ++ (conclude A h res).2.2.toList)
      = ((outcome st res).1, h', env') ∧ Rel h' env' (outcome st res).2 := by
  match res with
  | none => exact ⟨h, env, by simp [conclude, outcome], r⟩
  | some (.error e) => exact ⟨h, env, by simp [conclude, outcome], r⟩
  | some (.ok y) => exact ⟨_, _, rfl, r.box hA _⟩

theorem refines_step (hA : AllocOk A) (r : Rel h env st) (op : Op E T) : Refines A L h env st op := by
  intro obs st' hm
  cases op with
  | loadBsp text path out =>
    refine refines_make hA r _ _ ?_ obs st' hm
    unfold loadBsp
    cases path <;> cases out <;> simp only [ptr_false, ptr_true, Bool.and_true, Bool.and_false,
      or_true, true_or, or_self, if_true, if_false, Bool.false_eq_true]
    cases text with
    | none => rfl
    | some s => simp only; cases L.load s <;> rfl
  | loadBytes bytes data out =>
    refine refines_make hA r _ _ ?_ obs st' hm
    unfold loadBytes
    cases data <;> cases out <;> simp only [ptr_false, ptr_true, Bool.and_true, Bool.and_false,
      or_true, true_or, or_self, if_true, if_false, Bool.false_eq_true]
    cases L.parse bytes <;> rfl
  | contextNew out =>
    refine refines_make hA r _ _ ?_ obs st' hm
    cases out <;> rfl
  | stateNew jd x y z vx vy vz out =>
    refine refines_make hA r _ _ ?_ obs st' hm
    cases out
    · rfl
    · exact stateNew_value L jd x y z vx vy vz h
  | propagatorEarth out =>
    refine refines_make hA r _ _ ?_ obs st' hm
    cases out <;> rfl
  | propagatorNew gm out =>
    refine refines_make hA r _ _ ?_ obs st' hm
    unfold propagatorNew
    rw [positive_iff]
    cases out
    · rfl
    · simp only [ptr_true, if_false, if_true]
      cases gm with
      | fin g =>
        unfold positive
        by_cases hg : 0 < g
        · simp [hg]
        · simp [hg]
      | _ => rfl
  | withEphemeris c e =>
    simp only [step, withEphemeris]
    cases c with
    | none => exact same r hm (by simp [Handles.arg])
    | some c =>
      cases e with
      | none => exact same r hm (by simp [Handles.arg])
      | some e =>
        simp only [meaning, Option.bind_eq_some_iff, Option.map_eq_some_iff] at hm
        obtain ⟨v, hv, x, hx, hm⟩ := hm
        injection hm with h1 h2
        subst h1 h2
        obtain ⟨c0, hc⟩ := r.ctx hx
        obtain ⟨e0, he⟩ := r.eph hv
        refine ⟨_, env, ?_, r.update (ctxOf_some hx) _⟩
        rw [if_neg (not_or.mpr ⟨c0, e0⟩), he, hc]
        rfl
  | withAtmosphere c v =>
    simp only [step, withAtmosphere]
    cases c with
    | none => exact same r hm (by simp [Handles.arg])
    | some c =>
      cases v with
      | none => exact same r hm (by split <;> rfl)
      | some f =>
        simp only [meaning, Option.map_eq_some_iff] at hm
        obtain ⟨x, hx, hm⟩ := hm
        injection hm with h1 h2
        subst h1 h2
        obtain ⟨c0, hc⟩ := r.ctx hx
        refine ⟨_, env, ?_, r.update (ctxOf_some hx) _⟩
        rw [if_neg c0, hc]
        rfl
  | withGravity c v =>
    simp only [step, withGravity]
    cases c with
    | none => exact same r hm (by simp [Handles.arg])
    | some c =>
      cases v with
      | none => exact same r hm (by split <;> rfl)
      | some g =>
        have hcond : (!finite g.gm || notPositive g.gm || !finite g.radius || notPositive g.radius)
            = !((positive g.gm).isSome && (positive g.radius).isSome) := by
          rw [Bool.or_assoc, positive_iff, positive_iff]
          cases positive g.gm <;> cases positive g.radius <;> rfl
        simp only [meaning, Option.map_eq_some_iff] at hm
        obtain ⟨x, hx, hm⟩ := hm
        obtain ⟨c0, hc⟩ := r.ctx hx
        simp only [hcond]
        by_cases hp : ((positive g.gm).isSome && (positive g.radius).isSome) = true
        · rw [if_pos hp] at hm
          injection hm with h1 h2
          subst h1 h2
          refine ⟨_, env, ?_, r.update (ctxOf_some hx) _⟩
          rw [if_neg c0, if_neg (by simp [hp]), hc]
          rfl
        · rw [if_neg hp] at hm
          refine same r (congrArg some hm) ?_
          rw [if_neg c0, if_pos (by simp [hp])]
          rfl
  | position s ox oy oz =>
    simp only [step, statePosition]
    cases s with
    | none => exact same r hm (by simp [Handles.arg])
    | some s =>
      by_cases hb : ox = true ∧ oy = true ∧ oz = true
      · obtain ⟨rfl, rfl, rfl⟩ := hb
        simp only [meaning, Option.map_eq_some_iff] at hm
        obtain ⟨x, hx, hm⟩ := hm
        obtain ⟨s0, hs⟩ := r.state hx
        refine same r (congrArg some hm) ?_
        rw [if_neg (by simp [s0, ptr_true]), hs]
        rfl
      · have hm : some (Obs.vec .nullPointer none, st) = some (obs, st') := by
          cases ox <;> cases oy <;> cases oz <;> first | exact hm | exact absurd ⟨rfl, rfl, rfl⟩ hb
        refine same r hm ?_
        rw [if_pos]
        · rfl
        · cases ox <;> cases oy <;> cases oz <;> simp [ptr_false] at hb ⊢
  | velocity s ox oy oz =>
    simp only [step, stateVelocity]
    cases s with
    | none => exact same r hm (by simp [Handles.arg])
    | some s =>
      by_cases hb : ox = true ∧ oy = true ∧ oz = true
      · obtain ⟨rfl, rfl, rfl⟩ := hb
        simp only [meaning, Option.map_eq_some_iff] at hm
        obtain ⟨x, hx, hm⟩ := hm
        obtain ⟨s0, hs⟩ := r.state hx
        refine same r (congrArg some hm) ?_
        rw [if_neg (by simp [s0, ptr_true]), hs]
        rfl
      · have hm : some (Obs.vec .nullPointer none, st) = some (obs, st') := by
          cases ox <;> cases oy <;> cases oz <;> first | exact hm | exact absurd ⟨rfl, rfl, rfl⟩ hb
        refine same r hm ?_
        rw [if_pos]
        · rfl
        · cases ox <;> cases oy <;> cases oz <;> simp [ptr_false] at hb ⊢
  | epoch s out =>
    simp only [step, stateEpoch]
    cases s with
    | none => exact same r hm (by simp [Handles.arg])
    | some s =>
      cases out with
      | false => exact same r hm (by simp [ptr_false])
      | true =>
        simp only [meaning, Option.map_eq_some_iff] at hm
        obtain ⟨x, hx, hm⟩ := hm
        obtain ⟨s0, hs⟩ := r.state hx
        refine same r (congrArg some hm) ?_
        rw [if_neg (by simp [s0, ptr_true]), hs]
        rfl
  | propagate p s dt c out =>
    simp only [step, propagate]
    cases out with
    | false =>
      refine same (o := .dstatus .nullPointer) r ?_ (by simp [ptr_false])
      cases p <;> cases s <;> cases dt <;> exact hm
    | true =>
      cases p with
      | none =>
        refine same (o := .dstatus .nullPointer) r ?_ (by simp [Handles.arg])
        cases s <;> cases dt <;> exact hm
      | some p =>
        cases s with
        | none =>
          refine same (o := .dstatus .nullPointer) r ?_ (by simp [Handles.arg])
          cases dt <;> exact hm
        | some s =>
          cases dt with
          | fin d =>
            simp only [meaning, Option.bind_eq_some_iff, Option.map_eq_some_iff] at hm
            obtain ⟨gm, hgm, x, hx, ctx, hctx, hm⟩ := hm
            obtain ⟨p0, hp⟩ := r.prop hgm
            obtain ⟨s0, hs⟩ := r.state hx
            have hc : contextOf (Handles.arg env c) h = some ctx := by
              cases c with
              | none => simpa [contextOf, Handles.arg, ctxArg] using hctx
              | some i =>
                obtain ⟨c0, hc⟩ := r.ctx hctx
                unfold contextOf
                rw [if_neg c0, hc]
            obtain ⟨h', env', e1, e2⟩ := conclude_outcome hA r (L.dop gm x d ctx)
            rw [hm] at e1 e2
            refine ⟨h', env', ?_, e2⟩
            rw [if_neg (by simp [p0, s0, ptr_true])]
            simp only [hp, hs, hc, Option.bind_some, Option.map_some]
            rw [e1]
          | _ =>
            simp only [meaning, Option.bind_eq_some_iff, Option.map_eq_some_iff] at hm
            obtain ⟨gm, hgm, x, hx, hm⟩ := hm
            obtain ⟨p0, hp⟩ := r.prop hgm
            obtain ⟨s0, hs⟩ := r.state hx
            refine same r (congrArg some hm) ?_
            rw [if_neg (by simp [p0, s0, ptr_true])]
            simp
  | query f e jd out =>
    simp only [step, query]
    cases e with
    | none => exact same r hm (by simp [Handles.arg])
    | some e =>
      cases out with
      | false => exact same r hm (by simp [ptr_false])
      | true =>
        simp only [meaning, Option.map_eq_some_iff] at hm
        obtain ⟨v, hv, hm⟩ := hm
        obtain ⟨e0, he⟩ := r.eph hv
        rw [if_neg (by simp [e0, ptr_true]), he]
        simp only [Option.map_some]
        cases hj : L.checkJd jd with
        | none =>
          rw [hj] at hm
          exact same r (congrArg some hm) rfl
        | some t =>
          rw [hj] at hm
          refine same r (congrArg some hm) ?_
          simp only
          cases L.ask v f.body f.calls t with
          | ok x => rfl
          | error e => cases e <;> rfl
  | free k i =>
    cases i with
    | none =>
      refine same (o := .void) r ?_ ?_
      · cases k <;> exact hm
      · cases k <;> rfl
    | some i =>
      cases k with
      | ephemeris =>
        simp only [meaning, Option.map_eq_some_iff] at hm
        obtain ⟨v, hv, hm⟩ := hm
        injection hm with h1 h2
        subst h1 h2
        obtain ⟨p0, hp⟩ := r.eph hv
        refine ⟨_, env, ?_, r.update (ephOf_some hv) none⟩
        simp only [step, freeEphemeris, if_pos p0, hp, Option.map_some]
        rfl
      | context =>
        simp only [meaning, Option.map_eq_some_iff] at hm
        obtain ⟨v, hv, hm⟩ := hm
        injection hm with h1 h2
        subst h1 h2
        obtain ⟨p0, hp⟩ := r.ctx hv
        refine ⟨_, env, ?_, r.update (ctxOf_some hv) none⟩
        simp only [step, freeContext, if_pos p0, hp, Option.map_some]
        rfl
      | state =>
        simp only [meaning, Option.map_eq_some_iff] at hm
        obtain ⟨v, hv, hm⟩ := hm
        injection hm with h1 h2
        subst h1 h2
        obtain ⟨p0, hp⟩ := r.state hv
        refine ⟨_, env, ?_, r.update (stateOf_some hv) none⟩
        simp only [step, freeState, if_pos p0, hp, Option.map_some]
        rfl
      | propagator =>
        simp only [meaning, Option.map_eq_some_iff] at hm
        obtain ⟨v, hv, hm⟩ := hm
        injection hm with h1 h2
        subst h1 h2
        obtain ⟨p0, hp⟩ := r.prop hv
        refine ⟨_, env, ?_, r.update (propOf_some hv) none⟩
        simp only [step, freePropagator, if_pos p0, hp, Option.map_some]
        rfl

/-- A program that has a meaning runs without undefined behaviour and shows exactly what it means. -/
theorem refines_run (hA : AllocOk A) (r : Rel h env st) : ∀ (ops : List (Op E T)) {obs : List Obs} {st' : Store E T},
    meanings L st ops = some (obs, st') → ∃ h' env', run A L h env ops = some (obs, h', env') ∧ Rel h' env' st' := by
  intro ops
  induction ops generalizing h env st with
  | nil =>
    intro obs st' hm
    injection hm with hm
    injection hm with h1 h2
    subst h1 h2
    exact ⟨h, env, rfl, r⟩
  | cons op ops ih =>
    intro obs st' hm
    simp only [meanings, Option.bind_eq_some_iff, Option.map_eq_some_iff] at hm
    obtain ⟨⟨o, st1⟩, h1, ⟨os, st2⟩, h2, h3⟩ := hm
    injection h3 with h3 h4
    subst h3 h4
    obtain ⟨h', env', e1, r1⟩ := refines_step (L := L) hA r op o st1 h1
    obtain ⟨h'', env'', e2, r2⟩ := ih r1 h2
    refine ⟨h'', env'', ?_, r2⟩
    simp only [run, e1, Option.bind_some, e2, Option.map_some]

/-- The heap before the first call. -/
def fresh : Heap E T := fun _ => none

theorem Rel.start : Rel (fresh : Heap E T) [] [] :=
  ⟨rfl, fun i o h => by simp at h, fun i j a o o' h => by simp at h, fun a o h => by simp [fresh] at h⟩

theorem handles_refine (hA : AllocOk A) (ops : List (Op E T)) {obs : List Obs} {st : Store E T}
    (hm : meanings L [] ops = some (obs, st)) :
    ∃ h env, run A L fresh [] ops = some (obs, h, env) ∧ env.length = st.length
      ∧ (∀ (i : Nat) o, st[i]? = some (some o) → ∃ a, env[i]? = some a ∧ a ≠ 0 ∧ h a = some o)
      ∧ (∀ a o, h a = some o → ∃ i : Nat, env[i]? = some a ∧ st[i]? = some (some o)) := by
  obtain ⟨h, env, e, r⟩ := refines_run (L := L) hA Rel.start ops hm
  exact ⟨h, env, e, r.len, r.live, r.owned⟩

/-- Once all has been released nothing is left. -/
theorem no_leak (hA : AllocOk A) (ops : List (Op E T)) {obs : List Obs} {st : Store E T}
    (hm : meanings L [] ops = some (obs, st)) (hall : ∀ o ∈ st, o = none) :
    ∃ env, run A L fresh [] ops = some (obs, fresh, env) := by
  obtain ⟨h, env, e, r⟩ := refines_run (L := L) hA Rel.start ops hm
  have : h = fresh := by
    funext a
    cases ha : h a with
    | none => rfl
    | some o =>
      obtain ⟨i, _, hi⟩ := r.owned a o ha
      have := hall _ (List.mem_of_getElem? hi)
      cases this
  subst this
  exact ⟨env, e⟩

/-! ## What becomes of a value -/

/-- Calls that attach a provider to a context. -/
def Op.attaches (c : Nat) : Op E T → Prop
  | .withEphemeris (some c') _ => c' = c
  | .withAtmosphere (some c') _ => c' = c
  | .withGravity (some c') _ => c' = c
  | _ => False

/-- Calls that release a value. -/
def Op.releases (i : Nat) : Op E T → Prop
  | .free _ (some j) => j = i
  | _ => False

/-- The four things a call can do to the values. -/
theorem meaning_shape {op : Op E T} {obs : Obs} {st' : Store E T} (hm : meaning L st op = some (obs, st')) :
    st' = st ∨ (∃ v, st' = st ++ [some v]) ∨ (∃ c x, op.attaches c ∧ (ctxOf st c).isSome ∧ st' = st.set c (some (.context x)))
      ∨ ∃ i, op.releases i ∧ st' = st.set i none := by
  have hmake : ∀ r : Except Status (Obj E T), some (make st r) = some (obs, st') →
      st' = st ∨ (∃ v, st' = st ++ [some v]) := by
    intro r hr
    injection hr with hr
    cases r with
    | error e => left; exact (congrArg Prod.snd hr).symm
    | ok v => right; exact ⟨v, (congrArg Prod.snd hr).symm⟩
  have hleft : ∀ {P : Prop}, (st' = st ∨ (∃ v, st' = st ++ [some v])) → st' = st ∨ (∃ v, st' = st ++ [some v]) ∨ P := fun h => h.elim Or.inl (fun h => Or.inr (Or.inl h))
  cases op with
  | loadBsp text path out => exact hleft (hmake _ hm)
  | loadBytes bytes data out => exact hleft (hmake _ hm)
  | contextNew out => exact hleft (hmake _ hm)
  | stateNew jd x y z vx vy vz out => exact hleft (hmake _ hm)
  | propagatorEarth out => exact hleft (hmake _ hm)
  | propagatorNew gm out => exact hleft (hmake _ hm)
  | withEphemeris c e =>
    cases c with
    | none => injection hm with hm; exact Or.inl (congrArg Prod.snd hm).symm
    | some c =>
      cases e with
      | none => injection hm with hm; exact Or.inl (congrArg Prod.snd hm).symm
      | some e =>
        simp only [meaning, Option.bind_eq_some_iff, Option.map_eq_some_iff] at hm
        obtain ⟨v, hv, x, hx, hm⟩ := hm
        exact Or.inr (Or.inr (Or.inl ⟨c, _, rfl, by rw [hx]; rfl, (congrArg Prod.snd hm).symm⟩))
  | withAtmosphere c v =>
    cases c with
    | none => injection hm with hm; exact Or.inl (congrArg Prod.snd hm).symm
    | some c =>
      cases v with
      | none => injection hm with hm; exact Or.inl (congrArg Prod.snd hm).symm
      | some f =>
        simp only [meaning, Option.map_eq_some_iff] at hm
        obtain ⟨x, hx, hm⟩ := hm
        exact Or.inr (Or.inr (Or.inl ⟨c, _, rfl, by rw [hx]; rfl, (congrArg Prod.snd hm).symm⟩))
  | withGravity c v =>
    cases c with
    | none => injection hm with hm; exact Or.inl (congrArg Prod.snd hm).symm
    | some c =>
      cases v with
      | none => injection hm with hm; exact Or.inl (congrArg Prod.snd hm).symm
      | some g =>
        simp only [meaning, Option.map_eq_some_iff] at hm
        obtain ⟨x, hx, hm⟩ := hm
        split at hm
        · exact Or.inr (Or.inr (Or.inl ⟨c, _, rfl, by rw [hx]; rfl, (congrArg Prod.snd hm).symm⟩))
        · exact Or.inl (congrArg Prod.snd hm).symm
  | position s ox oy oz =>
    cases s <;> cases ox <;> cases oy <;> cases oz <;> first
      | (injection hm with hm; exact Or.inl (congrArg Prod.snd hm).symm)
      | (simp only [meaning, Option.map_eq_some_iff] at hm
         obtain ⟨_, _, hm⟩ := hm
         exact Or.inl (congrArg Prod.snd hm).symm)
  | velocity s ox oy oz =>
    cases s <;> cases ox <;> cases oy <;> cases oz <;> first
      | (injection hm with hm; exact Or.inl (congrArg Prod.snd hm).symm)
      | (simp only [meaning, Option.map_eq_some_iff] at hm
         obtain ⟨_, _, hm⟩ := hm
         exact Or.inl (congrArg Prod.snd hm).symm)
  | epoch s out =>
    cases s <;> cases out <;> first
      | (injection hm with hm; exact Or.inl (congrArg Prod.snd hm).symm)
      | (simp only [meaning, Option.map_eq_some_iff] at hm
         obtain ⟨_, _, hm⟩ := hm
         exact Or.inl (congrArg Prod.snd hm).symm)
  | propagate p s dt c out =>
    have hout : ∀ r, outcome st r = (obs, st') → st' = st ∨ (∃ v, st' = st ++ [some v]) := by
      intro r hr
      match r with
      | none => exact Or.inl (congrArg Prod.snd hr).symm
      | some (.error e) => exact Or.inl (congrArg Prod.snd hr).symm
      | some (.ok y) => exact Or.inr ⟨_, (congrArg Prod.snd hr).symm⟩
    have hfin : ∀ o : DStatus, some (Obs.dstatus o, st) = some (obs, st') → st' = st := fun o h => by
      injection h with h; exact (congrArg Prod.snd h).symm
    cases p <;> cases s <;> cases dt <;> cases out <;>
      first
      | exact Or.inl (hfin _ hm)
      | (simp only [meaning, Option.bind_eq_some_iff, Option.map_eq_some_iff] at hm
         obtain ⟨_, _, _, _, _, _, hm⟩ := hm
         exact hleft (hout _ hm))
      | (simp only [meaning, Option.bind_eq_some_iff, Option.map_eq_some_iff] at hm
         obtain ⟨_, _, _, _, hm⟩ := hm
         exact Or.inl (congrArg Prod.snd hm).symm)
  | query f e jd out =>
    cases e <;> cases out <;> first
      | (injection hm with hm; exact Or.inl (congrArg Prod.snd hm).symm)
      | (simp only [meaning, Option.map_eq_some_iff] at hm
         obtain ⟨_, _, hm⟩ := hm
         split at hm <;> exact Or.inl (congrArg Prod.snd hm).symm)
  | free k i =>
    cases i with
    | none =>
      have : some (Obs.void, st) = some (obs, st') := by cases k <;> exact hm
      injection this with this
      exact Or.inl (congrArg Prod.snd this).symm
    | some i =>
      cases k <;>
        (simp only [meaning, Option.map_eq_some_iff] at hm
         obtain ⟨_, _, hm⟩ := hm
         exact Or.inr (Or.inr (Or.inr ⟨i, rfl, (congrArg Prod.snd hm).symm⟩)))

/-- A value not released stays; only contexts can change, and only by attaching to them. -/
theorem value_kept_step {op : Op E T} {obs : Obs} {st' : Store E T} (hm : meaning L st op = some (obs, st')) {i : Nat}
    {o : Obj E T} (hi : st[i]? = some (some o)) (hr : ¬ op.releases i) (ha : ¬ (op.attaches i ∧ ∃ x, o = .context x)) :
    st'[i]? = some (some o) := by
  have hlt : i < st.length := (List.getElem?_eq_some_iff.mp hi).1
  rcases meaning_shape hm with rfl | ⟨v, rfl⟩ | ⟨c, x, hc, hs, rfl⟩ | ⟨j, hj, rfl⟩
  · exact hi
  · rw [List.getElem?_append_left hlt]; exact hi
  · by_cases e : c = i
    · subst e
      refine absurd ⟨hc, ?_⟩ ha
      unfold ctxOf at hs
      rw [hi] at hs
      cases o with
      | context x => exact ⟨x, rfl⟩
      | _ => cases hs
    · rw [List.getElem?_set_ne e]; exact hi
  · by_cases e : j = i
    · subst e; exact absurd hj hr
    · rw [List.getElem?_set_ne e]; exact hi

theorem value_kept : ∀ {ops : List (Op E T)} {st : Store E T} {obs : List Obs} {st' : Store E T},
    meanings L st ops = some (obs, st') → ∀ {i : Nat} {o : Obj E T}, st[i]? = some (some o) →
    (∀ op ∈ ops, ¬ op.releases i) → (∀ op ∈ ops, ¬ (op.attaches i ∧ ∃ x, o = .context x)) → st'[i]? = some (some o) := by
  intro ops
  induction ops with
  | nil =>
    intro st obs st' hm i o hi _ _
    injection hm with hm
    injection hm with h1 h2
    rw [← h2]
    exact hi
  | cons op ops ih =>
    intro st obs st' hm i o hi hr ha
    simp only [meanings, Option.bind_eq_some_iff, Option.map_eq_some_iff] at hm
    obtain ⟨⟨o1, st1⟩, h1, ⟨os, st2⟩, h2, h3⟩ := hm
    injection h3 with h3 h4
    subst h4
    exact ih h2 (value_kept_step h1 hi (hr _ (by simp)) (ha _ (by simp))) (fun op h => hr op (by simp [h]))
      (fun op h => ha op (by simp [h]))

theorem meanings_append : ∀ (xs ys : List (Op E T)) (st : Store E T), meanings L st (xs ++ ys)
    = (meanings L st xs).bind fun r => (meanings L r.2 ys).map fun q => (r.1 ++ q.1, q.2)
  | [], ys, st => by simp [meanings]
  | x :: xs, ys, st => by
    simp only [List.cons_append, meanings]
    cases meaning L st x with
    | none => rfl
    | some r =>
      simp only [Option.bind_some, meanings_append xs ys]
      cases meanings L r.2 xs with
      | none => rfl
      | some q =>
        simp only [Option.bind_some, Option.map_some]
        cases meanings L q.2 ys <;> rfl

/-- A state made from finite numbers gives them back after any program that does not release it: whatever else is
made, attached, propagated, queried or released in between. -/
theorem state_reads_back (hA : AllocOk A) (pre mid : List (Op E T)) (jd x y z vx vy vz : Rat) {o1 o2 : List Obs}
    {st st2 : Store E T} (h1 : meanings L [] pre = some (o1, st))
    (h2 : meanings L (st ++ [some (.state ⟨L.toEpoch jd, (x, y, z), (vx, vy, vz)⟩)]) mid = some (o2, st2))
    (hr : ∀ op ∈ mid, ¬ op.releases st.length) :
    ∃ h env, run A L fresh [] (pre ++ [.stateNew (.fin jd) (.fin x) (.fin y) (.fin z) (.fin vx) (.fin vy) (.fin vz) true]
        ++ mid ++ [.position (some st.length) true true true, .velocity (some st.length) true true true,
          .epoch (some st.length) true])
      = some (o1 ++ [.status .ok] ++ o2 ++ [.vec .ok (some (x, y, z)), .vec .ok (some (vx, vy, vz)),
          .time .ok (some (L.toJd (L.toEpoch jd)))], h, env) := by
  have hk : st2[st.length]? = some (some (.state ⟨L.toEpoch jd, (x, y, z), (vx, vy, vz)⟩)) :=
    value_kept h2 (by simp) hr (fun op _ hc => by obtain ⟨_, x, hx⟩ := hc; cases hx)
  have hst : stateOf st2 st.length = some ⟨L.toEpoch jd, (x, y, z), (vx, vy, vz)⟩ := by
    unfold stateOf; rw [hk]
  have hm : meanings L [] (pre ++ [.stateNew (.fin jd) (.fin x) (.fin y) (.fin z) (.fin vx) (.fin vy) (.fin vz) true]
        ++ mid ++ [.position (some st.length) true true true, .velocity (some st.length) true true true,
          .epoch (some st.length) true])
      = some (o1 ++ [.status .ok] ++ o2 ++ [.vec .ok (some (x, y, z)), .vec .ok (some (vx, vy, vz)),
          .time .ok (some (L.toJd (L.toEpoch jd)))], st2) := by
    rw [meanings_append, meanings_append, meanings_append, h1]
    simp only [Option.bind_some, meanings, meaning, make, stateValue, if_true, Option.map_some, h2, hst]
  obtain ⟨h, env, e, _⟩ := refines_run (L := L) hA Rel.start _ hm
  exact ⟨h, env, e⟩

/-- An ephemeris attached to a context stays with it, whether or not its own handle is released, until another is
attached or the context is released. -/
theorem attached_kept_step {op : Op E T} {obs : Obs} {st' : Store E T} (hm : meaning L st op = some (obs, st')) {c : Nat}
    {x : Context E} {v : E} (hc : ctxOf st c = some x) (hv : x.ephemeris = some v) (hr : ¬ op.releases c)
    (ha : ∀ e, op ≠ .withEphemeris (some c) e) : ∃ x', ctxOf st' c = some x' ∧ x'.ephemeris = some v := by
  have hi := ctxOf_some hc
  have hlt : c < st.length := (List.getElem?_eq_some_iff.mp hi).1
  by_cases hat : op.attaches c
  · cases op with
    | withEphemeris c' e =>
      cases c' with
      | none => exact hat.elim
      | some c' => cases hat; exact absurd rfl (ha e)
    | withAtmosphere c' e =>
      cases c' with
      | none => exact hat.elim
      | some c' =>
        cases hat
        cases e with
        | none =>
          injection hm with hm
          injection hm with _ e
          rw [← e]
          exact ⟨x, hc, hv⟩
        | some f =>
          simp only [meaning, hc, Option.map_some] at hm
          injection hm with hm
          injection hm with _ e
          rw [← e]
          exact ⟨⟨x.ephemeris, some f, x.gravity⟩, by simp [ctxOf, hlt], hv⟩
    | withGravity c' e =>
      cases c' with
      | none => exact hat.elim
      | some c' =>
        cases hat
        cases e with
        | none =>
          injection hm with hm
          injection hm with _ e
          rw [← e]
          exact ⟨x, hc, hv⟩
        | some g =>
          simp only [meaning, hc, Option.map_some] at hm
          injection hm with hm
          split at hm
          · injection hm with _ e
            rw [← e]
            exact ⟨⟨x.ephemeris, x.atmosphere, some g⟩, by simp [ctxOf, hlt], hv⟩
          · injection hm with _ e
            rw [← e]
            exact ⟨x, hc, hv⟩
    | _ => exact hat.elim
  · refine ⟨x, ?_, hv⟩
    have := value_kept_step hm hi hr (fun h => hat h.1)
    unfold ctxOf
    rw [this]

theorem attached_kept : ∀ {ops : List (Op E T)} {st : Store E T} {obs : List Obs} {st' : Store E T},
    meanings L st ops = some (obs, st') → ∀ {c : Nat} {x : Context E} {v : E}, ctxOf st c = some x → x.ephemeris = some v →
    (∀ op ∈ ops, ¬ op.releases c) → (∀ op ∈ ops, ∀ e, op ≠ .withEphemeris (some c) e) →
    ∃ x', ctxOf st' c = some x' ∧ x'.ephemeris = some v := by
  intro ops
  induction ops with
  | nil =>
    intro st obs st' hm c x v hc hv _ _
    injection hm with hm
    injection hm with h1 h2
    rw [← h2]
    exact ⟨x, hc, hv⟩
  | cons op ops ih =>
    intro st obs st' hm c x v hc hv hr ha
    simp only [meanings, Option.bind_eq_some_iff, Option.map_eq_some_iff] at hm
    obtain ⟨⟨o1, st1⟩, h1, ⟨os, st2⟩, h2, h3⟩ := hm
    injection h3 with h3 h4
    subst h4
    obtain ⟨x', e1, e2⟩ := attached_kept_step h1 hc hv (hr _ (by simp)) (ha _ (by simp))
    exact ih h2 e1 e2 (fun op h => hr op (by simp [h])) (fun op h => ha op (by simp [h]))

/-- A propagation gives a new handle and leaves every value there was. -/
theorem propagate_fresh {p s : Nat} {d : Rat} {c : Option Nat} {obs : Obs} {st' : Store E T}
    (hm : meaning L st (.propagate (some p) (some s) (.fin d) c true) = some (obs, st')) :
    ∃ gm x ctx, propOf st p = some gm ∧ stateOf st s = some x ∧ (c = none → ctx = ⟨none, none, none⟩)
      ∧ (∀ i, c = some i → ctxOf st i = some ctx)
      ∧ ((∃ y, L.dop gm x d ctx = some (.ok y) ∧ obs = .dstatus .ok ∧ st' = st ++ [some (.state y)])
        ∨ (∃ e, L.dop gm x d ctx = some (.error e) ∧ obs = .dstatus (.ofError e) ∧ st' = st)
        ∨ (L.dop gm x d ctx = none ∧ obs = .dstatus .internalPanic ∧ st' = st)) := by
  simp only [meaning, Option.bind_eq_some_iff, Option.map_eq_some_iff] at hm
  obtain ⟨gm, hgm, x, hx, ctx, hctx, hm⟩ := hm
  refine ⟨gm, x, ctx, hgm, hx, ?_, ?_, ?_⟩
  · rintro rfl; injection hctx with hctx; exact hctx.symm
  · rintro i rfl; exact hctx
  · match hd : L.dop gm x d ctx, hm with
    | none, hm => exact Or.inr (Or.inr ⟨rfl, (congrArg Prod.fst hm).symm, (congrArg Prod.snd hm).symm⟩)
    | some (.error e), hm => exact Or.inr (Or.inl ⟨e, rfl, (congrArg Prod.fst hm).symm, (congrArg Prod.snd hm).symm⟩)
    | some (.ok y), hm => exact Or.inl ⟨y, rfl, (congrArg Prod.fst hm).symm, (congrArg Prod.snd hm).symm⟩

/-! ## Providers and the two-body propagators -/

/-- The calls that attach something. -/
def Op.isAttach : Op E T → Bool
  | .withEphemeris _ _ => true
  | .withAtmosphere _ _ => true
  | .withGravity _ _ => true
  | _ => false

/-- The same values up to what is attached to contexts. -/
def Alike : Option (Obj E T) → Option (Obj E T) → Prop
  | some (.context _), some (.context _) => True
  | a, b => a = b

theorem Alike.refl (a : Option (Obj E T)) : Alike a a := by
  match a with
  | none => rfl
  | some (.context _) => trivial
  | some (.ephemeris _) => rfl
  | some (.state _) => rfl
  | some (.propagator _) => rfl

/-- Stores alike. -/
def Twins (st su : Store E T) : Prop := List.Forall₂ Alike st su

theorem Twins.refl : ∀ st : Store E T, Twins st st
  | [] => .nil
  | a :: st => .cons (Alike.refl a) (Twins.refl st)

theorem Twins.get {st su : Store E T} (h : Twins st su) (i : Nat) :
    (st[i]? = none ∧ su[i]? = none) ∨ ∃ a b, st[i]? = some a ∧ su[i]? = some b ∧ Alike a b := by
  unfold Twins at h
  induction h generalizing i with
  | nil => left; simp
  | cons h _ ih =>
    cases i with
    | zero => right; exact ⟨_, _, rfl, rfl, h⟩
    | succ i => simpa using ih i

theorem Twins.set {st su : Store E T} (h : Twins st su) (i : Nat) {a b : Option (Obj E T)} (hab : Alike a b) :
    Twins (st.set i a) (su.set i b) := by
  unfold Twins at h ⊢
  induction h generalizing i with
  | nil => exact .nil
  | cons h t ih =>
    cases i with
    | zero => exact .cons hab t
    | succ i => exact .cons h (ih i)

theorem Twins.append {st su : Store E T} (h : Twins st su) (a : Option (Obj E T)) : Twins (st ++ [a]) (su ++ [a]) := by
  unfold Twins at h ⊢
  induction h with
  | nil => exact .cons (Alike.refl a) .nil
  | cons h _ ih => exact .cons h ih

theorem Twins.eph {st su : Store E T} (h : Twins st su) (i : Nat) : ephOf su i = ephOf st i := by
  unfold ephOf
  rcases h.get i with ⟨h1, h2⟩ | ⟨a, b, h1, h2, hab⟩
  · rw [h1, h2]
  · rw [h1, h2]
    match a, b, hab with
    | some (.context _), some (.context _), _ => rfl
    | none, b, hab => cases hab; rfl
    | some (.ephemeris _), b, hab => cases hab; rfl
    | some (.state _), b, hab => cases hab; rfl
    | some (.propagator _), b, hab => cases hab; rfl

theorem Twins.state {st su : Store E T} (h : Twins st su) (i : Nat) : stateOf su i = stateOf st i := by
  unfold stateOf
  rcases h.get i with ⟨h1, h2⟩ | ⟨a, b, h1, h2, hab⟩
  · rw [h1, h2]
  · rw [h1, h2]
    match a, b, hab with
    | some (.context _), some (.context _), _ => rfl
    | none, b, hab => cases hab; rfl
    | some (.ephemeris _), b, hab => cases hab; rfl
    | some (.state _), b, hab => cases hab; rfl
    | some (.propagator _), b, hab => cases hab; rfl

theorem Twins.prop {st su : Store E T} (h : Twins st su) (i : Nat) : propOf su i = propOf st i := by
  unfold propOf
  rcases h.get i with ⟨h1, h2⟩ | ⟨a, b, h1, h2, hab⟩
  · rw [h1, h2]
  · rw [h1, h2]
    match a, b, hab with
    | some (.context _), some (.context _), _ => rfl
    | none, b, hab => cases hab; rfl
    | some (.ephemeris _), b, hab => cases hab; rfl
    | some (.state _), b, hab => cases hab; rfl
    | some (.propagator _), b, hab => cases hab; rfl

theorem Twins.ctx {st su : Store E T} (h : Twins st su) {i : Nat} {x : Context E} (hx : ctxOf st i = some x) :
    ∃ y, ctxOf su i = some y := by
  have hi := ctxOf_some hx
  rcases h.get i with ⟨h1, h2⟩ | ⟨a, b, h1, h2, hab⟩
  · rw [h1] at hi; cases hi
  · rw [h1] at hi
    injection hi with hi
    subst hi
    match b, h2, hab with
    | some (.context y), h2, _ => exact ⟨y, by unfold ctxOf; rw [h2]⟩
    | none, _, hab => cases hab
    | some (.ephemeris _), _, hab => cases hab
    | some (.state _), _, hab => cases hab
    | some (.propagator _), _, hab => cases hab

theorem Twins.attach {st su : Store E T} (h : Twins st su) {i : Nat} {x : Context E} (hx : ctxOf st i = some x)
    (y : Context E) : Twins (st.set i (some (.context y))) su := by
  obtain ⟨z, hz⟩ := h.ctx hx
  have := h.set i (a := some (.context y)) (b := some (.context z)) trivial
  obtain ⟨hl, he⟩ := List.getElem?_eq_some_iff.mp (ctxOf_some hz)
  rwa [← he, List.set_getElem_self] at this

theorem twins_make {st su : Store E T} (h : Twins st su) (r : Except Status (Obj E T)) {obs : Obs} {st' : Store E T}
    (hm : some (make st r) = some (obs, st')) : ∃ su', some (make su r) = some (obs, su') ∧ Twins st' su' := by
  injection hm with hm
  cases r with
  | error e => injection hm with h1 h2; subst h1 h2; exact ⟨su, rfl, h⟩
  | ok v => injection hm with h1 h2; subst h1 h2; exact ⟨_, rfl, h.append _⟩

theorem twins_same {st su : Store E T} (h : Twins st su) {o obs : Obs} {st' : Store E T}
    (hm : some (o, st) = some (obs, st')) : ∃ su', some (o, su) = some (obs, su') ∧ Twins st' su' := by
  injection hm with hm
  injection hm with h1 h2
  subst h1 h2
  exact ⟨su, rfl, h⟩

/-- If the integrator does not look at its context, neither does anything else but the attaching calls. -/
theorem twins_step (hd : ∀ gm x d c c', L.dop gm x d c = L.dop gm x d c') {st su : Store E T} (h : Twins st su)
    {op : Op E T} (hop : op.isAttach = false) {obs : Obs} {st' : Store E T} (hm : meaning L st op = some (obs, st')) :
    ∃ su', meaning L su op = some (obs, su') ∧ Twins st' su' := by
  cases op with
  | loadBsp text path out => exact twins_make h _ hm
  | loadBytes bytes data out => exact twins_make h _ hm
  | contextNew out => exact twins_make h _ hm
  | stateNew jd x y z vx vy vz out => exact twins_make h _ hm
  | propagatorEarth out => exact twins_make h _ hm
  | propagatorNew gm out => exact twins_make h _ hm
  | withEphemeris c e => cases hop
  | withAtmosphere c v => cases hop
  | withGravity c v => cases hop
  | position s ox oy oz =>
    cases s <;> cases ox <;> cases oy <;> cases oz <;> first
      | exact twins_same h hm
      | (simp only [meaning, h.state] at hm ⊢
         simp only [Option.map_eq_some_iff] at hm
         obtain ⟨x, hx, hm⟩ := hm
         rw [hx]
         exact twins_same h (congrArg some hm))
  | velocity s ox oy oz =>
    cases s <;> cases ox <;> cases oy <;> cases oz <;> first
      | exact twins_same h hm
      | (simp only [meaning, h.state] at hm ⊢
         simp only [Option.map_eq_some_iff] at hm
         obtain ⟨x, hx, hm⟩ := hm
         rw [hx]
         exact twins_same h (congrArg some hm))
  | epoch s out =>
    cases s <;> cases out <;> first
      | exact twins_same h hm
      | (simp only [meaning, h.state] at hm ⊢
         simp only [Option.map_eq_some_iff] at hm
         obtain ⟨x, hx, hm⟩ := hm
         rw [hx]
         exact twins_same h (congrArg some hm))
  | propagate p s dt c out =>
    cases p <;> cases s <;> cases dt <;> cases out <;> first
      | exact twins_same h hm
      | (simp only [meaning, h.state, h.prop, Option.bind_eq_some_iff, Option.map_eq_some_iff] at hm ⊢
         obtain ⟨gm, hgm, x, hx, ctx, hctx, hm⟩ := hm
         have hc : ∃ ctx', ctxArg su c = some ctx' := by
           cases c with
           | none => exact ⟨_, rfl⟩
           | some i => exact h.ctx hctx
         obtain ⟨ctx', hc⟩ := hc
         rw [hd gm x _ ctx ctx'] at hm
         match hdd : L.dop gm x _ ctx', hm with
         | none, hm =>
           injection hm with h1 h2
           subst h1 h2
           exact ⟨su, ⟨gm, hgm, x, hx, ctx', hc, by rw [hdd]; rfl⟩, h⟩
         | some (.error e), hm =>
           injection hm with h1 h2
           subst h1 h2
           exact ⟨su, ⟨gm, hgm, x, hx, ctx', hc, by rw [hdd]; rfl⟩, h⟩
         | some (.ok y), hm =>
           injection hm with h1 h2
           subst h1 h2
           exact ⟨_, ⟨gm, hgm, x, hx, ctx', hc, by rw [hdd]; rfl⟩, h.append _⟩)
      | (simp only [meaning, h.state, h.prop, Option.bind_eq_some_iff, Option.map_eq_some_iff] at hm ⊢
         obtain ⟨gm, hgm, x, hx, hm⟩ := hm
         injection hm with h1 h2
         subst h1 h2
         exact ⟨su, ⟨gm, hgm, x, hx, rfl⟩, h⟩)
  | query f e jd out =>
    cases e <;> cases out <;> first
      | exact twins_same h hm
      | (simp only [meaning, h.eph] at hm ⊢
         simp only [Option.map_eq_some_iff] at hm
         obtain ⟨x, hx, hm⟩ := hm
         rw [hx]
         simp only [Option.map_some]
         split at hm <;> exact twins_same h (congrArg some hm))
  | free k i =>
    cases i with
    | none =>
      have hm' : some (Obs.void, st) = some (obs, st') := by cases k <;> exact hm
      obtain ⟨su', e, t⟩ := twins_same h hm'
      exact ⟨su', by rw [← e]; cases k <;> rfl, t⟩
    | some i =>
      cases k with
      | context =>
        simp only [meaning, Option.map_eq_some_iff] at hm
        obtain ⟨x, hx, hm⟩ := hm
        injection hm with h1 h2
        subst h1 h2
        obtain ⟨y, hy⟩ := h.ctx hx
        exact ⟨_, by simp only [meaning, hy, Option.map_some], h.set i rfl⟩
      | ephemeris =>
        simp only [meaning, Option.map_eq_some_iff] at hm
        obtain ⟨x, hx, hm⟩ := hm
        injection hm with h1 h2
        subst h1 h2
        exact ⟨_, by simp only [meaning, h.eph, hx, Option.map_some], h.set i rfl⟩
      | state =>
        simp only [meaning, Option.map_eq_some_iff] at hm
        obtain ⟨x, hx, hm⟩ := hm
        injection hm with h1 h2
        subst h1 h2
        exact ⟨_, by simp only [meaning, h.state, hx, Option.map_some], h.set i rfl⟩
      | propagator =>
        simp only [meaning, Option.map_eq_some_iff] at hm
        obtain ⟨x, hx, hm⟩ := hm
        injection hm with h1 h2
        subst h1 h2
        exact ⟨_, by simp only [meaning, h.prop, hx, Option.map_some], h.set i rfl⟩

theorem twins_attach {st su : Store E T} (h : Twins st su) {op : Op E T} (hop : op.isAttach = true) {obs : Obs}
    {st' : Store E T} (hm : meaning L st op = some (obs, st')) : Twins st' su := by
  rcases meaning_shape hm with rfl | ⟨v, rfl⟩ | ⟨c, x, hc, hs, rfl⟩ | ⟨j, hj, rfl⟩
  · exact h
  · exfalso
    have : ∀ x : Option (Obj E T) , ∀ c, st ++ [some v] ≠ st.set c x := fun x c e => by
      have := congrArg List.length e
      simp at this
    cases op with
    | withEphemeris c e =>
      cases c <;> cases e <;> simp [meaning, Option.bind_eq_some_iff, Option.map_eq_some_iff] at hm
      obtain ⟨_, _, _, _, _, hm⟩ := hm
      exact this _ _ hm.symm
    | withAtmosphere c e =>
      cases c <;> cases e <;> simp [meaning, Option.map_eq_some_iff] at hm
      obtain ⟨_, _, _, hm⟩ := hm
      exact this _ _ hm.symm
    | withGravity c e =>
      cases c <;> cases e <;> simp only [meaning, Option.map_eq_some_iff] at hm
      · simp at hm
      · simp at hm
      · simp at hm
      · obtain ⟨_, _, hm⟩ := hm
        split at hm
        · injection hm with _ hm
          exact this _ _ hm.symm
        · injection hm with _ hm
          simp at hm
    | _ => cases hop
  · obtain ⟨y, hy⟩ := Option.isSome_iff_exists.mp hs
    exact h.attach hy x
  · cases op with
    | free k i => cases hop
    | _ => exact hj.elim

/-- With an integrator that ignores its context, leaving out every attaching call changes nothing else the client
sees. -/
theorem providers_unused (hd : ∀ gm x d c c', L.dop gm x d c = L.dop gm x d c') : ∀ (ops : List (Op E T))
    {st su : Store E T}, Twins st su → ∀ {obs : List Obs} {st' : Store E T}, meanings L st ops = some (obs, st') →
    ∃ su', meanings L su (ops.filter fun op => !op.isAttach)
        = some (((ops.zip obs).filter fun p => !p.1.isAttach).map Prod.snd, su') ∧ Twins st' su' := by
  intro ops
  induction ops with
  | nil =>
    intro st su h obs st' hm
    injection hm with hm
    injection hm with h1 h2
    subst h1 h2
    exact ⟨su, rfl, h⟩
  | cons op ops ih =>
    intro st su h obs st' hm
    simp only [meanings, Option.bind_eq_some_iff, Option.map_eq_some_iff] at hm
    obtain ⟨⟨o1, st1⟩, h1, ⟨os, st2⟩, h2, h3⟩ := hm
    injection h3 with h3 h4
    subst h3 h4
    cases hop : op.isAttach with
    | true =>
      obtain ⟨su', e, t⟩ := ih (twins_attach h hop h1) h2
      exact ⟨su', by simpa [hop] using e, t⟩
    | false =>
      obtain ⟨su1, e1, t1⟩ := twins_step hd h hop h1
      obtain ⟨su', e, t⟩ := ih t1 h2
      refine ⟨su', ?_, t⟩
      simp only [List.zip_cons_cons, List.filter_cons, hop, Bool.not_false, if_true, List.map_cons, meanings, e1,
        Option.bind_some]
      rw [e]
      rfl

/-! ## Callbacks -/

/-- A density is used exactly when it is a number not below zero; a negative one is reported as being below the
surface, at that altitude, anything else as a failure of the provider. -/
theorem density_iff (f : Rat → F64) (a : Rat) :
    (∀ r, density f a = .ok r ↔ ∃ q : Rat, 0 ≤ q ∧ f a = .fin q ∧ r = .fin q)
      ∧ ((∃ q : Rat, q < 0 ∧ f a = .fin q) → density f a = .error (.altitudeBelowSurface a))
      ∧ ((∀ q : Rat, f a ≠ .fin q) → density f a = .error .provider) := by
  unfold density
  cases hf : f a with
  | fin q =>
    simp only [finite, Bool.not_true, Bool.false_eq_true, if_false, negative, decide_eq_true_eq]
    by_cases hq : q < 0
    · rw [if_pos hq]
      refine ⟨fun r => ⟨fun h => (by cases h), ?_⟩, fun _ => rfl, fun h => absurd rfl (h q)⟩
      rintro ⟨q', h0, h1, -⟩
      injection h1 with h1
      subst h1
      exact absurd hq (not_lt.mpr h0)
    · rw [if_neg hq]
      refine ⟨fun r => ⟨fun h => ?_, ?_⟩, ?_, fun h => absurd rfl (h q)⟩
      · injection h with h
        exact ⟨q, not_lt.mp hq, rfl, h.symm⟩
      · rintro ⟨q', h0, h1, h2⟩
        rw [h1, h2]
      · rintro ⟨q', h0, h1⟩
        injection h1 with h1
        subst h1
        exact absurd h0 hq
  | _ =>
    refine ⟨fun r => ⟨fun h => (by cases h), ?_⟩, ?_, fun _ => rfl⟩
    · rintro ⟨q', h0, h1, -⟩; cases h1
    · rintro ⟨q', h0, h1⟩; cases h1

/-- A coefficient is what the callback says when that is a number; degrees and orders below 2³² arrive unchanged. -/
theorem coefficient_iff (f : Nat → Nat → F64) {n m : Nat} (hn : n < 2 ^ 32) (hm : m < 2 ^ 32) :
    (∀ r, coefficient f n m = .ok r ↔ ∃ q : Rat, f n m = .fin q ∧ r = .fin q)
      ∧ ((∀ q : Rat, f n m ≠ .fin q) → ∃ n' m', coefficient f n m = .error (.gravityCoefficientUnavailable n' m')
          ∧ (n < 2 ^ 16 → n' = n) ∧ (m < 2 ^ 16 → m' = m)) := by
  unfold coefficient
  rw [Nat.mod_eq_of_lt hn, Nat.mod_eq_of_lt hm]
  cases hf : f n m with
  | fin q =>
    refine ⟨fun r => ⟨fun h => ?_, ?_⟩, fun h => absurd rfl (h q)⟩
    · injection h with h
      exact ⟨q, rfl, h.symm⟩
    · rintro ⟨q', h1, h2⟩
      rw [h2, ← h1]
      rfl
  | _ =>
    refine ⟨fun r => ⟨fun h => (by cases h), ?_⟩, fun _ => ⟨_, _, rfl, Nat.mod_eq_of_lt, Nat.mod_eq_of_lt⟩⟩
    rintro ⟨q', h1, -⟩
    cases h1

/-- Above that the error names another coefficient. -/
theorem coefficient_error_cut : coefficient (fun _ _ => .nan) 65538 0
    = .error (.gravityCoefficientUnavailable 2 0) := rfl

/-- Gravity callbacks are taken exactly when the constants are positive numbers, and then stored as given. -/
theorem gravity_accepted_iff {c : Nat} {g : Gravity} {x : Context E} (hc : ctxOf st c = some x) :
    (∃ st', meaning L st (.withGravity (some c) (some g)) = some (.status .ok, st')
        ∧ ctxOf st' c = some ⟨x.ephemeris, x.atmosphere, some g⟩
        ∧ ∃ a b : Rat, 0 < a ∧ 0 < b ∧ g.gm = .fin a ∧ g.radius = .fin b)
      ∨ meaning L st (.withGravity (some c) (some g)) = some (.status .invalidArgument, st)
        ∧ ¬ ∃ a b : Rat, 0 < a ∧ 0 < b ∧ g.gm = .fin a ∧ g.radius = .fin b := by
  have hlt : c < st.length := (List.getElem?_eq_some_iff.mp (ctxOf_some hc)).1
  simp only [meaning, hc, Option.map_some]
  by_cases hp : ((positive g.gm).isSome && (positive g.radius).isSome) = true
  · left
    rw [if_pos hp]
    have key : ∀ q : F64, (positive q).isSome = true → ∃ a : Rat, 0 < a ∧ q = .fin a := by
      intro q hq
      cases q with
      | fin a =>
        unfold positive at hq
        by_cases ha : 0 < a
        · exact ⟨a, ha, rfl⟩
        · simp [ha] at hq
      | _ => cases hq
    rw [Bool.and_eq_true] at hp
    obtain ⟨a, ha, e1⟩ := key _ hp.1
    obtain ⟨b, hb, e2⟩ := key _ hp.2
    exact ⟨_, rfl, by simp [ctxOf, hlt], a, b, ha, hb, e1, e2⟩
  · right
    rw [if_neg hp]
    refine ⟨rfl, ?_⟩
    rintro ⟨a, b, ha, hb, e1, e2⟩
    rw [e1, e2] at hp
    simp [positive, ha, hb] at hp

/-! ## Statuses, names and labels -/

/-- Different statuses have different codes, each error has its own, and none is that of success. -/
theorem status_codes :
    (∀ a b : DStatus, a.code = b.code → a = b) ∧ (∀ e, DStatus.ofError e ≠ .ok ∧ DStatus.ofError e ≠ .internalPanic
      ∧ DStatus.ofError e ≠ .nullPointer) := by
  refine ⟨fun a b => ?_, fun e => ?_⟩
  · cases a <;> cases b <;> simp [DStatus.code]
  · cases e <;> simp [DStatus.ofError]

/-- Every position function asks for the centre it labels its answer with; kilometres are used for the Moon alone;
no two functions are the same. -/
theorem labels_true :
    (∀ f ∈ vsopTable ++ runtimeTable, f.calls = f.centre ∧ (f.unit = .km ↔ f.body = .moon)
      ∧ (f.centre = .geocentric ↔ f.body = .moon))
      ∧ ((vsopTable ++ runtimeTable).map Entry.name).Nodup
      ∧ (vsopTable.map fun f => (f.body, f.centre)).Nodup ∧ (runtimeTable.map fun f => (f.body, f.centre)).Nodup
      ∧ (∀ b : Body, ∃ f ∈ vsopTable, f.body = b) := by
  refine ⟨by decide +kernel, by decide +kernel, by decide +kernel, by decide +kernel, fun b => ?_⟩
  cases b <;> decide

/-- The answer of a series function. -/
theorem vsop_answer (f : Entry) (toJd : F64 → Option T) (series : Body → Centre → T → Rat × Rat × Rat) (jd : F64)
    (out : Addr) (hf : f ∈ vsopTable) :
    ((vsopQuery f toJd series jd out).1 = .ok ↔ out ≠ 0 ∧ (toJd jd).isSome)
      ∧ (∀ p, (vsopQuery f toJd series jd out).2 = some p → ∃ t, toJd jd = some t ∧ p.xyz = series f.body p.centre t
          ∧ p.centre = f.centre ∧ (p.unit = .km ↔ f.body = .moon)) := by
  have hl := labels_true.1 f (by simp [hf])
  unfold vsopQuery
  by_cases ho : out = 0
  · simp [ho]
  · rw [if_neg ho]
    cases hj : toJd jd with
    | none => simp
    | some t =>
      refine ⟨by simp [ho], ?_⟩
      rintro p hp
      injection hp with hp
      subst hp
      exact ⟨t, rfl, by rw [hl.1], rfl, hl.2.1⟩

/-! ## A program -/

/-- A library over small numbers. -/
def demo : Lib Nat Rat where
  load := fun s => if s = "de440.bsp" then some 440 else none
  parse := fun b => some b.length
  toEpoch := id
  toJd := id
  checkJd := fun
    | .fin t => some t
    | _ => none
  ask := fun e _ _ t => if t < 0 then .error .outOfRange else .ok (e, t, 0)
  gmEarth := 398600
  dop := fun gm s d c => if d < 0 then none else some (.ok ⟨s.epoch + d, (gm, (c.ephemeris.getD 0 : Nat), 0), s.v⟩)

/-- Load a kernel, attach it, release its handle, propagate, read the result, release the rest. -/
def program : List (Op Nat Rat) :=
  [.loadBsp (some "de440.bsp") true true, .contextNew true, .withEphemeris (some 1) (some 0), .free .ephemeris (some 0),
   .stateNew (.fin 5) (.fin 7000) (.fin 0) (.fin 0) (.fin 0) (.fin 7) (.fin 0) true, .propagatorEarth true,
   .propagate (some 3) (some 2) (.fin 60) (some 1) true, .position (some 4) true true true, .epoch (some 4) true,
   .position (some 2) true true true, .stateNew .nan (.fin 0) (.fin 0) (.fin 0) (.fin 0) (.fin 0) (.fin 0) true,
   .propagate (some 3) (some 2) (.fin (-1)) none true, .free .state (some 4), .free .state (some 2),
   .free .propagator (some 3), .free .context (some 1), .free .context none]

example : (meanings demo [] program).map (fun r => (r.1.length, r.2.all Option.isNone)) = some (17, true) := by
  decide +kernel

example : ∃ obs st, meanings demo [] program = some (obs, st) ∧ (∀ o ∈ st, o = none)
    ∧ obs[7]? = some (.vec .ok (some (398600, 440, 0))) ∧ obs[8]? = some (.time .ok (some 65))
    ∧ obs[9]? = some (.vec .ok (some (7000, 0, 0))) ∧ obs[11]? = some (.dstatus .internalPanic) := by
  refine ⟨_, [none, none, none, none, none], rfl, by simp, rfl, ?_, rfl, rfl⟩
  show some (Obs.time .ok (some ((5 : Rat) + 60))) = _
  norm_num

/-- Using a released value has no meaning. -/
example : meanings demo [] [.contextNew true, .free .context (some 0), .free .context (some 0)] = none := rfl

end Verif.Handles
