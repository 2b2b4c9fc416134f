import Verif.CTarget.Model
import Verif.Targets.Props

/-!
# Handles of generic targets: what a client sees over any history (C225)
-/

namespace Verif.CTarget.Props

open Verif.Earth (Ctx meanObliquity)
open Verif.Star (ProperMotion Convention)
open Verif.Targets (Target Data Num CFrame build payload toIcrs netFrame fromSpherical fromCartesian)
open Verif.Targets.Props (Points given created refused)
open Verif.Ffi (Status)

/-! ## What is promised -/

/-- The status a description of a target deserves: a description at a finite epoch of a direction in one of the six
frames is good, one in another frame is a wrong frame, anything else a wrong argument. -/
inductive Verdict (d : Data) : Status → Prop
  | good {jd : ℝ} {f : CFrame} {g v} : d.epoch = some jd → Points d.coord f v → given f = some g → Verdict d .ok
  | frame {jd : ℝ} {f : CFrame} {v} : d.epoch = some jd → Points d.coord f v → given f = none → Verdict d .invalidFrame
  | argument : (∀ jd f v, d.epoch = some jd → ¬ Points d.coord f v) → Verdict d .invalidArgument

/-- The target a call asks for and the place for its handle. -/
inductive Asks : Call → Data → Addr → Prop
  | described (d : Data) (out : Addr) : Asks (.create d out) d out
  | fixed (ra dec : ℝ) (e : Num) (out : Addr) :
      Asks (.icrs ra dec e out)
        { coord := .direction { polar := dec, azimuth := ra, frame := .icrs }, epoch := e, hasMotion := false,
          motion := { ra := 0, dec := 0, convention := .muAlpha } } out
  | moving (ra dec : ℝ) (e : Num) (x y : ℝ) (k : Convention) (out : Addr) :
      Asks (.icrsPm ra dec e x y k out)
        { coord := .direction { polar := dec, azimuth := ra, frame := .icrs }, epoch := e, hasMotion := true,
          motion := { ra := x, dec := y, convention := k } } out

/-- What the client has: the descriptions of the targets made so far, with those released struck out. -/
abbrev Ledger := List (Option Data)

/-- The calls a client may make, and what each must answer. -/
inductive Step : Ledger → Call → Ledger → Answer → Prop
  | nowhere {m x d} : Asks x d 0 → Step m x m (.made .nullPointer)
  | made {m x d out} : Asks x d out → out ≠ 0 → Verdict d .ok → Step m x (m ++ [some d]) (.made .ok)
  | refused {m x d out s} : Asks x d out → out ≠ 0 → Verdict d s → s ≠ .ok → Step m x m (.made s)
  | freeNull {m} : Step m (.free none) m .freed
  | free {m i d} : m[i]? = some (some d) → Step m (.free (some i)) (m.set i none) .freed
  | dataNull {m out} : Step m (.data none out) m (.data .nullPointer none)
  | dataNowhere {m i} : i < m.length → Step m (.data (some i) 0) m (.data .nullPointer none)
  | data {m i out d} : out ≠ 0 → m[i]? = some (some d) → Step m (.data (some i) out) m (.data .ok (some d))
  | epochNull {m out} : Step m (.epoch none out) m (.epoch .nullPointer none)
  | epochNowhere {m i} : i < m.length → Step m (.epoch (some i) 0) m (.epoch .nullPointer none)
  | epoch {m i out d} : out ≠ 0 → m[i]? = some (some d) → Step m (.epoch (some i) out) m (.epoch .ok (some d.epoch))

inductive Steps : Ledger → List Call → Ledger → List Answer → Prop
  | nil (m) : Steps m [] m []
  | cons {m m' m'' x xs a as} : Step m x m' a → Steps m' xs m'' as → Steps m (x :: xs) m'' (a :: as)

/-- An allocator gives an address that is not null and not in use. -/
def Fresh (A : Alloc) : Prop := ∀ h, A h ≠ 0 ∧ h (A h) = none

/-- The context's nutation model carries the mean obliquity (`Earth`). -/
def Sound (c : Ctx) : Prop := ∀ jd, (c.nut jd).meanObliquity = meanObliquity jd

/-! ## The status -/

theorem given_net {f : CFrame} (h : given f = none) : f ≠ .icrs ∧ netFrame f = none := by
  cases f <;> simp [given] at h <;> simp [netFrame]

theorem points_payload {co : Targets.Coord} {f v} (h : Points co f v) : ∃ p, payload co = .ok p ∧ p.frame = f := by
  cases h with
  | direction d => exact ⟨d, rfl, rfl⟩
  | spherical l b r f hr => exact ⟨⟨b, l, f⟩, by simp [payload, fromSpherical, not_le.mpr hr], rfl⟩
  | cartesian x y z f hr =>
    obtain ⟨p, h1, h2, -⟩ := Targets.Props.cartesian_payload x y z f hr
    exact ⟨p, h1, h2⟩

theorem payload_points {co : Targets.Coord} {p} (h : payload co = .ok p) : ∃ v, Points co p.frame v := by
  cases co with
  | direction q => cases h; exact ⟨_, .direction _⟩
  | spherical l b r f =>
    unfold payload fromSpherical at h
    rcases l with _ | l <;> rcases b with _ | b <;> rcases r with _ | r <;> simp only [reduceCtorEq] at h
    split at h
    · cases h
    · rename_i hr
      cases h
      exact ⟨_, .spherical _ _ _ _ (not_le.mp hr)⟩
  | cartesian x y z f =>
    rcases x with _ | x <;> rcases y with _ | y <;> rcases z with _ | z <;>
      simp only [payload, fromCartesian, reduceCtorEq] at h
    split at h
    · cases h
    · rename_i hr
      cases h
      refine ⟨_, .cartesian _ _ _ _ ?_⟩
      have e : x * x + y * y + z * z = x ^ 2 + y ^ 2 + z ^ 2 := by ring
      rw [e] at hr
      exact not_le.mp hr

theorem payload_error {co : Targets.Coord} {s} (h : payload co = .error s) : s = .invalidArgument := by
  cases co with
  | direction q => cases h
  | spherical l b r f =>
    unfold payload fromSpherical at h
    rcases l with _ | l <;> rcases b with _ | b <;> rcases r with _ | r <;> simp only at h
    on_goal 8 => split at h
    all_goals cases h
    all_goals rfl
  | cartesian x y z f =>
    rcases x with _ | x <;> rcases y with _ | y <;> rcases z with _ | z <;> simp only [payload, fromCartesian] at h
    on_goal 8 => split at h
    all_goals cases h
    all_goals rfl

/-- **C225.** The outcome of building a target is the one its description deserves. -/
theorem build_verdict {c : Ctx} (hc : Sound c) (d : Data) {s : Status} (h : Verdict d s) :
    match build c d with
    | .ok _ => s = .ok
    | .error e => s = e ∧ e ≠ .ok := by
  cases h with
  | good he hp hg =>
    obtain ⟨t, m, ht, -⟩ := created (hc _) he hp hg
    rw [ht]
  | frame he hp hg =>
    obtain ⟨p, h1, h2⟩ := points_payload hp
    obtain ⟨h3, h4⟩ := given_net hg
    subst h2
    unfold build toIcrs
    simp [he, h1, h3, h4]
  | argument hn =>
    unfold build
    cases he : d.epoch with
    | none => simp
    | some jd =>
      cases hq : payload d.coord with
      | error e => simp [payload_error hq]
      | ok p =>
        obtain ⟨v, hv⟩ := payload_points hq
        exact absurd hv (hn jd _ v he)

/-- **C225.** Every description deserves exactly one status. -/
theorem verdict_unique (d : Data) : ∃! s, Verdict d s := by
  have frames : ∀ {f f' : CFrame} {v v'}, Points d.coord f v → Points d.coord f' v' → f = f' := by
    intro f f' v v' h h'
    obtain ⟨p, h1, h2⟩ := points_payload h
    obtain ⟨p', h1', h2'⟩ := points_payload h'
    rw [h1] at h1'
    cases h1'
    rw [← h2, ← h2']
  have uniq : ∀ s s', Verdict d s → Verdict d s' → s = s' := by
    intro s s' h h'
    cases h with
    | good he hp hg =>
      cases h' with
      | good => rfl
      | frame he' hp' hg' => rw [frames hp hp', hg'] at hg; cases hg
      | argument hn => exact absurd hp (hn _ _ _ he)
    | frame he hp hg =>
      cases h' with
      | good he' hp' hg' => rw [frames hp hp', hg'] at hg; cases hg
      | frame => rfl
      | argument hn => exact absurd hp (hn _ _ _ he)
    | argument hn =>
      cases h' with
      | good he' hp' hg' => exact absurd hp' (hn _ _ _ he')
      | frame he' hp' hg' => exact absurd hp' (hn _ _ _ he')
      | argument => rfl
  by_cases hx : ∃ jd f v, d.epoch = some jd ∧ Points d.coord f v
  · obtain ⟨jd, f, v, he, hp⟩ := hx
    cases hg : given f with
    | none => exact ⟨_, .frame he hp hg, fun s h => uniq _ _ h (.frame he hp hg)⟩
    | some g => exact ⟨_, .good he hp hg, fun s h => uniq _ _ h (.good he hp hg)⟩
  · have hn : ∀ jd f v, d.epoch = some jd → ¬ Points d.coord f v := fun jd f v he hp => hx ⟨jd, f, v, he, hp⟩
    exact ⟨_, .argument hn, fun s h => uniq _ _ h (.argument hn)⟩

/-! ## Histories -/

/-- The heap holds the targets of the ledger and nothing else, each at its own address. -/
structure Holds (c : Ctx) (s : Heap × List Addr) (m : Ledger) : Prop where
  len : s.2.length = m.length
  live : ∀ (i : Nat) d, m[i]? = some (some d) → ∃ p t, s.2[i]? = some p ∧ p ≠ 0 ∧ build c d = .ok t ∧ s.1 p = some ⟨t, d⟩
  apart : ∀ (i j : Nat) p d d', m[i]? = some (some d) → m[j]? = some (some d') → s.2[i]? = some p → s.2[j]? = some p → i = j
  only : ∀ p, s.1 p ≠ none → ∃ (i : Nat) (d : Data), m[i]? = some (some d) ∧ s.2[i]? = some p

theorem asks_call {c : Ctx} {A : Alloc} {s : Heap × List Addr} {x d out} (h : Asks x d out) :
    call c A s x = some (((create c A d out s.1).2.1, s.2 ++ (create c A d out s.1).2.2.toList),
      .made (create c A d out s.1).1) := by
  cases h <;> rfl

theorem holds_push {c : Ctx} {A : Alloc} (hA : Fresh A) {s : Heap × List Addr} {m : Ledger} (h : Holds c s m)
    {d : Data} {t : Target} (ht : build c d = .ok t) :
    Holds c (fun a => if a = A s.1 then some ⟨t, d⟩ else s.1 a, s.2 ++ [A s.1]) (m ++ [some d]) := by
  obtain ⟨h0, hn⟩ := hA s.1
  have hs := h.len
  have old : ∀ (i : Nat) p e, m[i]? = some (some e) → s.2[i]? = some p → p ≠ A s.1 := by
    rintro i p e hi hp rfl
    obtain ⟨q, t', hq, -, -, hq'⟩ := h.live i e hi
    rw [hp] at hq
    cases hq
    rw [hn] at hq'
    cases hq'
  have split : ∀ (i : Nat) e, (m ++ [some d])[i]? = some (some e) →
      (i < m.length ∧ m[i]? = some (some e)) ∨ (i = m.length ∧ e = d) := by
    intro i e hi
    rcases lt_or_ge i m.length with hl | hl
    · rw [List.getElem?_append_left hl] at hi
      exact .inl ⟨hl, hi⟩
    · rw [List.getElem?_append_right hl] at hi
      have : i - m.length = 0 := by
        by_contra hne
        rw [List.getElem?_eq_none (by simp; omega)] at hi
        cases hi
      rw [this] at hi
      exact .inr ⟨by omega, by simpa using hi.symm⟩
  have addrOld : ∀ i : Nat, i < m.length → (s.2 ++ [A s.1])[i]? = s.2[i]? := fun i hi =>
    List.getElem?_append_left (by omega)
  have addrNew : (s.2 ++ [A s.1])[m.length]? = some (A s.1) := by
    rw [List.getElem?_append_right (by omega), hs]
    simp
  refine ⟨by simp [hs], ?_, ?_, ?_⟩
  · intro i e hi
    rcases split i e hi with ⟨hl, hi⟩ | ⟨rfl, rfl⟩
    · obtain ⟨p, t', hp, hp0, hb, hq⟩ := h.live i e hi
      refine ⟨p, t', by rw [addrOld i hl]; exact hp, hp0, hb, ?_⟩
      show (if p = A s.1 then _ else _) = _
      rw [if_neg (old i p e hi hp)]
      exact hq
    · exact ⟨A s.1, t, addrNew, h0, ht, if_pos rfl⟩
  · intro i j p e e' hi hj hp hp'
    rcases split i e hi with ⟨hl, hi₁⟩ | ⟨rfl, rfl⟩ <;> rcases split j e' hj with ⟨hl', hj₁⟩ | ⟨rfl, rfl⟩
    · rw [addrOld i hl] at hp
      rw [addrOld j hl'] at hp'
      exact h.apart i j p e e' hi₁ hj₁ hp hp'
    · rw [addrOld i hl] at hp
      rw [addrNew] at hp'
      cases hp'
      exact absurd rfl (old i _ e hi₁ hp)
    · rw [addrNew] at hp
      rw [addrOld j hl'] at hp'
      cases hp
      exact absurd rfl (old j _ e' hj₁ hp')
    · rfl
  · intro p hp
    by_cases hpA : p = A s.1
    · subst hpA
      exact ⟨m.length, d, by simp, addrNew⟩
    · have : s.1 p ≠ none := by
        intro hh
        exact hp (by show (if p = A s.1 then _ else _) = _; rw [if_neg hpA]; exact hh)
      obtain ⟨i, e, hi, hq⟩ := h.only p this
      have hl : i < m.length := by
        by_contra hl
        rw [List.getElem?_eq_none (by omega)] at hi
        cases hi
      exact ⟨i, e, by rw [List.getElem?_append_left hl]; exact hi, by rw [addrOld i hl]; exact hq⟩

theorem holds_strike {c : Ctx} {s : Heap × List Addr} {m : Ledger} (h : Holds c s m) {i : Nat} {d : Data} {p : Addr}
    (hi : m[i]? = some (some d)) (hp : s.2[i]? = some p) :
    Holds c (fun a => if a = p then none else s.1 a, s.2) (m.set i none) := by
  have keep : ∀ (j : Nat) e, (m.set i none)[j]? = some (some e) → j ≠ i ∧ m[j]? = some (some e) := by
    intro j e hj
    rw [List.getElem?_set] at hj
    by_cases hij : i = j
    · subst hij
      rw [if_pos rfl] at hj
      split at hj <;> simp at hj
    · rw [if_neg hij] at hj
      exact ⟨fun hh => hij hh.symm, hj⟩
  refine ⟨by simp [h.len], ?_, ?_, ?_⟩
  · intro j e hj
    obtain ⟨hne, hj⟩ := keep j e hj
    obtain ⟨q, t, hq, hq0, hb, hh⟩ := h.live j e hj
    refine ⟨q, t, hq, hq0, hb, ?_⟩
    have : q ≠ p := by
      rintro rfl
      exact hne (h.apart j i q e d hj hi hq hp)
    show (if q = p then _ else _) = _
    rw [if_neg this]
    exact hh
  · intro j k q e e' hj hk hq hq'
    exact h.apart j k q e e' (keep j e hj).2 (keep k e' hk).2 hq hq'
  · intro q hq
    have hqp : q ≠ p := by
      rintro rfl
      exact hq (if_pos rfl)
    have : s.1 q ≠ none := by
      intro hh
      exact hq (by show (if q = p then _ else _) = _; rw [if_neg hqp]; exact hh)
    obtain ⟨j, e, hj, hjq⟩ := h.only q this
    refine ⟨j, e, ?_, hjq⟩
    have hne : i ≠ j := by
      rintro rfl
      rw [hp] at hjq
      exact hqp (Option.some.inj hjq).symm
    rw [List.getElem?_set_ne hne]
    exact hj

theorem step_ok {c : Ctx} (hc : Sound c) {A : Alloc} (hA : Fresh A) {s : Heap × List Addr} {m m' : Ledger} {x : Call}
    {a : Answer} (h : Holds c s m) (hs : Step m x m' a) : ∃ s', call c A s x = some (s', a) ∧ Holds c s' m' := by
  have place : ∀ i, i < m.length → ∃ p, s.2[i]? = some p := fun i hi =>
    ⟨_, List.getElem?_eq_getElem (by rw [h.len]; exact hi)⟩
  cases hs with
  | nowhere hk =>
    rw [asks_call hk]
    exact ⟨_, by simp [create]; rfl, by simpa using h⟩
  | made hk ho hv =>
    rename_i d out
    rw [asks_call hk]
    have := build_verdict hc d hv
    cases hb : build c d with
    | error e => rw [hb] at this; exact absurd this.1.symm this.2
    | ok t =>
      exact ⟨_, by simp only [create, if_neg ho, hb, Option.toList], holds_push hA h hb⟩
  | refused hk ho hv hne =>
    rename_i d out st
    rw [asks_call hk]
    have := build_verdict hc d hv
    cases hb : build c d with
    | ok t => rw [hb] at this; exact absurd this hne
    | error e =>
      rw [hb] at this
      obtain ⟨rfl, -⟩ := this
      exact ⟨_, by simp only [create, if_neg ho, hb, Option.toList]; rfl, by simpa using h⟩
  | freeNull => exact ⟨s, by simp [call, pointer, free], h⟩
  | free hi =>
    rename_i i d
    obtain ⟨p, t, hp, hp0, -, hh⟩ := h.live i d hi
    exact ⟨_, by simp [call, pointer, free, hp, hp0, hh], holds_strike h hi hp⟩
  | dataNull => exact ⟨s, by simp [call, pointer, getData], h⟩
  | dataNowhere hi =>
    obtain ⟨p, hp⟩ := place _ hi
    exact ⟨s, by simp [call, pointer, getData, hp], h⟩
  | data ho hi =>
    obtain ⟨p, t, hp, hp0, -, hh⟩ := h.live _ _ hi
    exact ⟨s, by simp [call, pointer, getData, hp, hp0, hh, ho], h⟩
  | epochNull => exact ⟨s, by simp [call, pointer, epochJd], h⟩
  | epochNowhere hi =>
    obtain ⟨p, hp⟩ := place _ hi
    exact ⟨s, by simp [call, pointer, epochJd, hp], h⟩
  | epoch ho hi =>
    obtain ⟨p, t, hp, hp0, -, hh⟩ := h.live _ _ hi
    exact ⟨s, by simp [call, pointer, epochJd, hp, hp0, hh, ho], h⟩

theorem steps_ok {c : Ctx} (hc : Sound c) {A : Alloc} (hA : Fresh A) {m m' : Ledger} {xs : List Call} {as : List Answer}
    (hs : Steps m xs m' as) : ∀ {s : Heap × List Addr}, Holds c s m →
    ∃ s', run c A s xs = some (s', as) ∧ Holds c s' m' := by
  induction hs with
  | nil m => exact fun {s} h => ⟨s, rfl, h⟩
  | cons hx _ ih =>
    intro s h
    obtain ⟨s', h1, h2⟩ := step_ok hc hA h hx
    obtain ⟨s'', h3, h4⟩ := ih h2
    exact ⟨s'', by simp [run, h1, h3], h4⟩

theorem holds_empty (c : Ctx) : Holds c (fun _ => none, []) [] :=
  ⟨rfl, by simp, by simp, by simp⟩

/-- **C225.** A client that uses only handles it holds, over any number of calls in any order, meets no undefined behaviour
and sees exactly the answers promised: each read gives back the description its target was made from, whatever was made or
released in between. At the end the heap holds the targets not released, each with its description and the direction of
`build` (C202), and nothing else. -/
theorem client_history {c : Ctx} (hc : Sound c) {A : Alloc} (hA : Fresh A) {m : Ledger} {xs : List Call}
    {as : List Answer} (hs : Steps [] xs m as) :
    ∃ heap handles, run c A (fun _ => none, []) xs = some ((heap, handles), as) ∧
      handles.length = m.length ∧
      (∀ (i : Nat) (d : Data), m[i]? = some (some d) → ∃ p t, handles[i]? = some p ∧ p ≠ 0 ∧ build c d = .ok t ∧ heap p = some ⟨t, d⟩) ∧
      (∀ p, heap p ≠ none → ∃ (i : Nat) (d : Data), m[i]? = some (some d) ∧ handles[i]? = some p) := by
  obtain ⟨⟨heap, handles⟩, h1, h2⟩ := steps_ok hc hA hs (holds_empty c)
  exact ⟨heap, handles, h1, h2.len, h2.live, h2.only⟩

/-- **C225.** Once every target made has been released the heap is empty. -/
theorem nothing_leaks {c : Ctx} (hc : Sound c) {A : Alloc} (hA : Fresh A) {m : Ledger} {xs : List Call}
    {as : List Answer} (hs : Steps [] xs m as) (hm : ∀ x ∈ m, x = none) :
    ∃ s, run c A (fun _ => none, []) xs = some (s, as) ∧ ∀ p, s.1 p = none := by
  obtain ⟨s, h1, h2⟩ := steps_ok hc hA hs (holds_empty c)
  refine ⟨s, h1, fun p => ?_⟩
  by_contra hp
  obtain ⟨i, d, hi, -⟩ := h2.only p hp
  cases hm _ (List.mem_of_getElem? hi)

/-- **C225.** Two targets held at the same time have different handles. -/
theorem handles_differ {c : Ctx} (hc : Sound c) {A : Alloc} (hA : Fresh A) {m : Ledger} {xs : List Call}
    {as : List Answer} (hs : Steps [] xs m as) :
    ∃ s, run c A (fun _ => none, []) xs = some (s, as) ∧ ∀ (i j : Nat) p d d', m[i]? = some (some d) →
      m[j]? = some (some d') → s.2[i]? = some p → s.2[j]? = some p → i = j := by
  obtain ⟨s, h1, h2⟩ := steps_ok hc hA hs (holds_empty c)
  exact ⟨s, h1, h2.apart⟩

/-- **C225.** The two short forms of making a target are the general one: a direction in ICRS, without a proper motion or
with the one given. The status is wrong argument exactly when the epoch is not finite. -/
theorem short_forms (c : Ctx) (A : Alloc) (ra dec : ℝ) (e : Num) (x y : ℝ) (k : Convention) (out : Addr)
    (ho : out ≠ 0) (h : Heap) :
    ((createIcrs c A ra dec e out h).1 = if e.isSome then .ok else .invalidArgument) ∧
    ((createIcrsWithPm c A ra dec e x y k out h).1 = if e.isSome then .ok else .invalidArgument) ∧
    ∀ jd, e = some jd → ∃ t t' p p',
      (createIcrs c A ra dec e out h).2.2 = some p ∧
      ((createIcrs c A ra dec e out h).2.1 p).map Handle.inner = some t ∧
      (createIcrsWithPm c A ra dec e x y k out h).2.2 = some p' ∧
      ((createIcrsWithPm c A ra dec e x y k out h).2.1 p').map Handle.inner = some t' ∧
      t.position.ra = ra ∧ t.position.dec = dec ∧ t.time = jd ∧ t.motion = none ∧
      t'.position.ra = ra ∧ t'.position.dec = dec ∧ t'.time = jd ∧ t'.motion = some ⟨x, y, k⟩ := by
  rcases e with _ | jd
  · refine ⟨?_, ?_, fun jd hh => by cases hh⟩ <;> simp [createIcrs, createIcrsWithPm, create, ho, build]
  · refine ⟨?_, ?_, fun jd' hh => ?_⟩
    · simp [createIcrs, create, ho, build, payload, toIcrs]
    · simp [createIcrsWithPm, create, ho, build, payload, toIcrs]
    · cases hh
      refine ⟨_, _, _, _, by simp [createIcrs, create, ho, build, payload, toIcrs]; rfl,
        by simp [createIcrs, create, ho, build, payload, toIcrs]; rfl,
        by simp [createIcrsWithPm, create, ho, build, payload, toIcrs]; rfl,
        by simp [createIcrsWithPm, create, ho, build, payload, toIcrs]; rfl, rfl, rfl, rfl, rfl, rfl, rfl, rfl, rfl⟩

/-! ## Example -/

/-- Descriptions: a fixed star, one in galactic coordinates (refused), one without an epoch (refused). -/
noncomputable def vega : Data := ⟨.direction ⟨38, 279, .icrs⟩, some 2451545, false, ⟨0, 0, .muAlpha⟩⟩
noncomputable def galactic : Data := ⟨.direction ⟨0, 0, .galactic⟩, some 2451545, false, ⟨0, 0, .muAlpha⟩⟩
noncomputable def undated : Data := ⟨.direction ⟨0, 0, .icrs⟩, none, false, ⟨0, 0, .muAlpha⟩⟩

theorem vega_good : Verdict vega .ok := .good (g := .icrs) rfl (.direction _) rfl
theorem galactic_bad : Verdict galactic .invalidFrame := .frame rfl (.direction _) rfl
theorem undated_bad : Verdict undated .invalidArgument := .argument fun _ _ _ h => by cases h

/-- Two are made, one is released, the other still reads back. -/
example : Steps [] [.create vega 8, .create galactic 8, .create undated 8, .icrs 279 38 (some 2451545) 8, .free (some 0),
    .data (some 1) 8, .epoch (some 1) 8, .free (some 1)] [none, none]
    [.made .ok, .made .invalidFrame, .made .invalidArgument, .made .ok, .freed, .data .ok (some vega),
      .epoch .ok (some (some 2451545)), .freed] :=
  .cons (.made (.described _ _) (by decide) vega_good) <|
  .cons (.refused (.described _ _) (by decide) galactic_bad (by decide)) <|
  .cons (.refused (.described _ _) (by decide) undated_bad (by decide)) <|
  .cons (.made (.fixed _ _ _ _) (by decide) vega_good) <|
  .cons (.free (d := vega) rfl) <|
  .cons (.data (by decide) rfl) <|
  .cons (.epoch (d := vega) (by decide) rfl) <|
  .cons (.free (d := vega) rfl) <| .nil _

/-- The context of `Targets` meets the contract. -/
example : Sound Verif.Earth.Props.exactCtx := fun _ => rfl

end Verif.CTarget.Props
