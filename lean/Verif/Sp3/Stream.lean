import Verif.Sp3.Model

/-
Property C52: the streaming reader delivers what the batch reader returns.
-/
namespace Verif.Sp3.Props
open Verif.Text Verif.Sp3

variable {T : Type}

/-! ### Specification -/

/-- What a call of `next_epoch` and the calls after it deliver. -/
def deliver (later : Stream → Option (R (List (Epoch T)))) : R (Option (Epoch T)) × Stream → Option (R (List (Epoch T)))
  | (.ok none, _) => some (.ok [])
  | (.ok (some e), s') => (later s').map (fun r => r.bind (fun es => .ok (e :: es)))
  | (.err e, _) => some (.err e)
  | (.panic, _) => some .panic

/-- Call `next_epoch` until it answers `None` or an error; `none`: not finished after `n` calls. -/
def drain (env : Env T) : Nat → Stream → Option (R (List (Epoch T)))
  | 0, _ => none
  | n + 1, s => deliver (drain env n) (nextEpoch env s)

/-- The record collected from the stream: its header and everything it delivers. -/
def collect (env : Env T) (n : Nat) (src : Src) : Option (R (Record T)) :=
  match newStream src with
  | .ok s => (drain env n s).map (fun r => r.bind (fun es => .ok ⟨s.header, es⟩))
  | .err e => some (.err e)
  | .panic => some .panic

/-! ### Proof -/

/-- The record with further epochs in front. -/
def withFront (header : List Str) (front : List (Epoch T)) (r : R (List (Epoch T))) : R (Record T) :=
  r.bind (fun es => .ok ⟨header, front ++ es⟩)

theorem epoch_same (env : Env T) (line : Str) (no : Nat) : batchEpoch env line no = parseEpochLine env line no := rfl

theorem pos_same (line : Str) (no : Nat) : batchPos line no = parsePLine line no := rfl

theorem drain_finished (env : Env T) (n : Nat) (s : Stream) (h : s.finished = true) : drain env (n + 1) s = some (.ok []) := by
  simp [drain, nextEpoch, h, deliver]

/-- The body: from a current epoch on. -/
theorem body_same (env : Env T) (fails : Bool) (header : List Str) (ls : List Str) :
    ∀ (no : Nat) (epochs : List (Epoch T)) (e : Epoch T) (n : Nat), ls.length < n →
      (deliver (drain env n) (nextLoop fails header ls no e)).map (withFront header epochs) =
      some (batchLoop env fails ls no header epochs false (some e)) := by
  induction ls with
  | nil =>
    intro no epochs e n hn
    obtain ⟨n, rfl⟩ : ∃ k, n = k + 1 := ⟨n - 1, by simp at hn; omega⟩
    cases fails
    · simp [nextLoop, batchLoop, drain_finished, withFront, deliver]
    · simp [nextLoop, batchLoop, withFront, deliver]
  | cons s ls ih =>
    intro no epochs e n hn
    obtain ⟨n, rfl⟩ : ∃ k, n = k + 1 := ⟨n - 1, by simp at hn; omega⟩
    have hn' : ls.length < n := by simp at hn; omega
    rw [nextLoop, batchLoop]
    by_cases hE : trimEol s = "EOF".toList
    · rw [if_pos hE, if_pos hE]
      simp [withFront, deliver, drain_finished]
    · rw [if_neg hE, if_neg hE, if_neg (show ¬ (false = true ∧ (trimEol s).head? ≠ some '*') by simp)]
      by_cases hS : (trimEol s).head? = some '*'
      · rw [if_pos hS, if_pos hS]
        simp only [deliver]
        rw [drain]
        unfold nextEpoch
        simp only [Bool.false_eq_true, if_false]
        rw [epoch_same]
        cases hp : parseEpochLine env (trimEol s) (no + 1) with
        | err er => simp [withFront, deliver]
        | panic => simp [withFront, deliver]
        | ok e' =>
          simp only [Res.bind]
          rw [Option.toList_some, ← ih (no + 1) (epochs ++ [e]) e' n hn']
          generalize deliver (drain env n) (nextLoop fails header ls (no + 1) e') = q
          rcases q with _ | r
          · rfl
          · cases r <;> simp [withFront]
      · rw [if_neg hS, if_neg hS]
        by_cases hP : (trimEol s).head? = some 'P'
        · rw [if_pos hP, if_pos hP, pos_same]
          cases hp : parsePLine (trimEol s) (no + 1) with
          | err er => simp [withFront, deliver]
          | panic => simp [withFront, deliver]
          | ok p =>
            simp only [Res.bind]
            exact ih (no + 1) epochs (pushPos e p) (n + 1) (by omega)
        · rw [if_neg hP, if_neg hP]
          exact ih (no + 1) epochs e (n + 1) (by omega)

/-- The header. -/
theorem header_same (env : Env T) (fails : Bool) (ls : List Str) :
    ∀ (no : Nat) (header : List Str) (n : Nat), ls.length < n →
      (match newLoop fails ls no header with
        | .ok r => (drain env n ⟨r.1, fails, r.2.1, r.2.2.1, r.2.2.2, false⟩).map (fun es => es.bind (fun es => .ok ⟨r.2.1, es⟩))
        | .err e => some (.err e)
        | .panic => some .panic) = some (batchLoop env fails ls no header [] true none) := by
  induction ls with
  | nil =>
    intro no header n hn
    obtain ⟨n, rfl⟩ : ∃ k, n = k + 1 := ⟨n - 1, by simp at hn; omega⟩
    cases fails
    · simp [newLoop, batchLoop, drain, nextEpoch, deliver]
    · simp [newLoop, batchLoop]
  | cons s ls ih =>
    intro no header n hn
    obtain ⟨n, rfl⟩ : ∃ k, n = k + 1 := ⟨n - 1, by simp at hn; omega⟩
    have hn' : ls.length < n := by simp at hn; omega
    rw [newLoop, batchLoop]
    by_cases hE : trimEol s = "EOF".toList
    · rw [if_pos hE, if_pos hE]
      simp [drain, nextEpoch, deliver]
    · rw [if_neg hE, if_neg hE]
      by_cases hS : (trimEol s).head? = some '*'
      · rw [if_pos hS, if_neg (by simp [hS]), if_pos hS]
        dsimp only
        rw [drain]
        unfold nextEpoch
        simp only [Bool.false_eq_true, if_false]
        rw [epoch_same]
        cases hp : parseEpochLine env (trimEol s) (no + 1) with
        | err er => simp [deliver]
        | panic => simp [deliver]
        | ok e' =>
          simp only [Res.bind, Option.toList_none, List.append_nil]
          rw [← body_same env fails header ls (no + 1) [] e' n hn']
          rfl
      · rw [if_neg hS, if_pos ⟨rfl, hS⟩]
        exact ih (no + 1) (header ++ [trimEol s]) (n + 1) (by omega)

/-! ### C52 -/

/-- For every input, also one that fails while being read: opening a stream and calling `next_epoch` to the
end gives the record of the batch reader, or its error. It takes at most one call per line and one more. -/
theorem stream_equals_batch (env : Env T) (src : Src) (n : Nat) (h : src.lines.length < n) :
    collect env n src = some (readSp3 env src) := by
  unfold collect readSp3 newStream
  rw [← header_same env src.fails src.lines 0 [] n h]
  cases newLoop src.fails src.lines 0 [] <;> rfl

/-- After the end has been announced it stays announced. -/
theorem end_stays (env : Env T) (s s' : Stream) (h : nextEpoch env s = (.ok none, s')) : nextEpoch env s' = (.ok none, s') := by
  unfold nextEpoch at h
  split at h
  · rename_i hf
    obtain rfl := (Prod.mk.inj h).2
    simp [nextEpoch, hf]
  · split at h
    · obtain rfl := (Prod.mk.inj h).2
      simp [nextEpoch]
    · split at h
      · rename_i e _
        exfalso
        rename_i no line _ _
        clear * - h
        generalize s.lineNo = k at h
        generalize s.rest = ls at h
        induction ls generalizing k e with
        | nil => unfold nextLoop at h; split at h <;> simp at h
        | cons l ls ih =>
          unfold nextLoop at h
          dsimp only at h
          split at h
          · simp at h
          · split at h
            · simp at h
            · split at h
              · split at h
                · exact ih _ _ h
                · simp at h
                · simp at h
              · exact ih _ _ h
      · simp at h
      · simp at h

end Verif.Sp3.Props
