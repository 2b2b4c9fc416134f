import Verif.Passband.Data
import Mathlib.Data.Real.Basic

/-!
# Bundled spectra

Model of `src/photometry/passbands/{mod,bessell1990}.rs` and `src/atmosphere/ozone.rs`.  The loader and the
interpolation belong to the external crate `optica`; they are modelled from how they are called and from what
their names and the callers' comments promise: `two_column` drops blank lines and lines beginning with `#`, reads
two numbers from every other line, scales them and refuses a table that is short or not strictly increasing;
`interp_at` interpolates linearly between neighbouring samples.  Real arithmetic.
-/

namespace Verif.Passband
open Verif.Text

/-- One line of `two_column` (called at bessell1990.rs:164-172, ozone.rs:68-75): `some none` is a line without
data, `none` a malformed one. -/
def row (l : Str) : Option (Option (ℚ × ℚ)) :=
  if trim l = [] ∨ (trim l).head? = some '#' then some none
  else match words l with
    | [a, b] => do
      let x ← (← parseFloat a).toRat?
      let y ← (← parseFloat b).toRat?
      pure (some (x, y))
    | _ => none

/-- The rows of a text (`two_column`). -/
def rows : List Str → Option (List (ℚ × ℚ))
  | [] => some []
  | l :: ls => do
    let r ← row l
    let rs ← rows ls
    pure (match r with | none => rs | some p => p :: rs)

/-- Strictly increasing wavelengths. -/
def increasing : List (ℚ × ℚ) → Bool
  | a :: b :: t => decide (a.1 < b.1) && increasing (b :: t)
  | _ => true

/-- `two_column` with its two scale factors (called at bessell1990.rs:164-172, ozone.rs:68-75). -/
def twoColumn (sx sy : ℚ) (raw : Str) : Option (List (ℚ × ℚ)) := do
  let t ← rows (lines raw)
  let t := t.map fun p => (sx * p.1, sy * p.2)
  if 2 ≤ t.length ∧ increasing t then some t else none

/-- `OutOfRange` as used here (bessell1990.rs:169, ozone.rs:73). -/
inductive Outside where
  | zero
  | clamp
deriving DecidableEq

/-- A `SampledSpectrum` with linear interpolation. -/
structure Spectrum where
  table : List (ℚ × ℚ)
  outside : Outside
deriving DecidableEq

/-- Linear interpolation from the first sample on. -/
noncomputable def line : List (ℚ × ℚ) → ℝ → ℝ
  | [], _ => 0
  | [p], _ => p.2
  | p :: q :: t, x =>
    open Classical in
    if x ≤ q.1 then p.2 + (x - p.1) / (q.1 - p.1) * (q.2 - p.2) else line (q :: t) x

/-- `SampledSpectrum::interp_at` (called at ozone.rs:87). -/
noncomputable def Spectrum.at (s : Spectrum) (x : ℝ) : ℝ :=
  open Classical in
  match s.table.head?, s.table.getLast? with
  | some p, some q =>
    if x < p.1 then (match s.outside with | .zero => 0 | .clamp => p.2)
    else if q.1 < x then (match s.outside with | .zero => 0 | .clamp => q.2)
    else line s.table x
  | _, _ => 0

/-- `load` (bessell1990.rs:163-173); `none` is the panic. -/
def load (raw : Str) : Option Spectrum := (twoColumn 1 1 raw).map (⟨·, .zero⟩)

/-- `u` (bessell1990.rs:180-188). -/
def u : Option Spectrum := load rawU
/-- `b` (bessell1990.rs:193-201). -/
def b : Option Spectrum := load rawB
/-- `v` (bessell1990.rs:206-214). -/
def v : Option Spectrum := load rawV
/-- `r` (bessell1990.rs:219-227). -/
def r : Option Spectrum := load rawR
/-- `i` (bessell1990.rs:232-240). -/
def i : Option Spectrum := load rawI

/-- `johnson_b` (passbands/mod.rs:62-64). -/
def johnsonB : Option Spectrum := b
/-- `johnson_v` (passbands/mod.rs:76-78). -/
def johnsonV : Option Spectrum := v

/-- `transmission_table` (src/atmosphere/ozone.rs:64-78): micrometres times 1000.  The text is taken as read. -/
def ozone : Spectrum :=
  ⟨ozoneRaw.map fun p => (1000 * ((p.1 : ℚ) / 1000000), 1 * ((p.2 : ℚ) / 10000)), .clamp⟩

/-- `transmittance_at` (ozone.rs:86-88). -/
noncomputable def transmittanceAt (nm : ℝ) : ℝ := ozone.at nm

end Verif.Passband
