import Mathlib.Analysis.SpecialFunctions.Trigonometric.Inverse
import Verif.Sky.Model
import Verif.Text.Lines

/-
Model of the star catalogue: `/repo/src/catalogs/record.rs`, `catalog.rs`, `ingest.rs`.

The searches are over real numbers. Magnitudes are the parsed floating-point values, so that infinities and NaN can
be told apart. The reader is over texts; its final conversion of degrees to radians and the unit wrappers are
left out.
-/
namespace Verif.Catalog

open Verif.Text
open Verif.Sky (remTau)

/-! ## Records and searches -/

/-- `CatalogRecord` (record.rs 15-41), as far as searches look at it. -/
structure Record where
  id : Nat
  ra : ℝ
  dec : ℝ
  epoch : ℝ
  pmRa : Option ℝ
  pmDec : Option ℝ
  g : Option F64
  quality : Bool

/-- record.rs 52. -/
noncomputable def masToRad : ℝ := Real.pi / 180 / 3600000

/-- record.rs 54-58. -/
noncomputable def shiftRa (mu dt dec : ℝ) : ℝ :=
  if |Real.cos dec| > 1 / 10 ^ 12 then mu * masToRad * dt / Real.cos dec else 0

/-- record.rs 60-69: back over the pole. -/
noncomputable def fold (ra dec : ℝ) : ℝ × ℝ :=
  if dec > Real.pi / 2 then (remTau (ra + Real.pi), Real.pi - dec)
  else if dec < -(Real.pi / 2) then (remTau (ra + Real.pi), -Real.pi - dec)
  else (ra, dec)

/-- `propagate_to` (record.rs 47-70). -/
noncomputable def propagate (r : Record) (epoch : ℝ) : ℝ × ℝ :=
  match r.pmRa, r.pmDec with
  | some a, some d =>
    fold (remTau (r.ra + shiftRa a (epoch - r.epoch) r.dec)) (r.dec + d * masToRad * (epoch - r.epoch))
  | _, _ => (r.ra, r.dec)

/-- `CatalogFilter` (record.rs 75-80). -/
structure Filter where
  maxG : Option F64
  quality : Option Bool

/-- `a > b` on floating-point numbers. -/
def gt : F64 → F64 → Bool
  | .num a, .num b => decide (a > b)
  | .num _, .inf n => n
  | .inf n, .num _ => !n
  | .inf n, .inf n' => !n && n'
  | _, _ => false

/-- `passes_filter` (record.rs 82-98). -/
def passes (r : Record) (f : Filter) : Bool :=
  (match f.maxG with
    | none => true
    | some m => match r.g with
      | some g => !gt g m
      | none => false) &&
  (match f.quality with
    | none => true
    | some q => r.quality == q)

/-- record.rs 108-111. -/
noncomputable def haversine (ra dec cra cdec : ℝ) : ℝ :=
  (Real.sin (dec - cdec) / 2) ^ 2
    + Real.cos dec * Real.cos cdec * Real.sin ((ra - cra) / 2) * Real.sin ((ra - cra) / 2)

/-- `inside_cone` (record.rs 101-114). -/
def insideCone (ra dec cra cdec radius : ℝ) : Prop :=
  2 * Real.arcsin (min (Real.sqrt (haversine ra dec cra cdec)) 1) ≤ radius

noncomputable instance (ra dec cra cdec radius : ℝ) : Decidable (insideCone ra dec cra cdec radius) := Classical.dec _

/-- `cone_search` (catalog.rs 54-67). -/
noncomputable def coneSearch (rs : List Record) (cra cdec radius : ℝ) (f : Filter) : List Record :=
  rs.filter fun r => decide (insideCone r.ra r.dec cra cdec radius) && passes r f

/-- `cone_search_at_epoch` (catalog.rs 72-87). -/
noncomputable def coneSearchAt (rs : List Record) (cra cdec radius epoch : ℝ) (f : Filter) : List Record :=
  rs.filter fun r => decide (insideCone (propagate r epoch).1 (propagate r epoch).2 cra cdec radius) && passes r f

/-- `slice::chunks` with a size above zero. -/
def chunks {α : Type} (n : Nat) (h : 0 < n) (l : List α) : List (List α) :=
  match l with
  | [] => []
  | a :: t => (a :: t).take n :: chunks n h ((a :: t).drop n)
termination_by l.length
decreasing_by simp; omega

/-- `cone_search_chunked` (catalog.rs 92-110). -/
noncomputable def coneSearchChunked (rs : List Record) (cra cdec radius : ℝ) (f : Filter) (size : Nat) :
    List (List Record) :=
  (chunks (max size 1) (by omega) rs).map fun c => coneSearch c cra cdec radius f

/-! ## Reading tables -/

/-- `CatalogIngestError` (ingest.rs 22-42). -/
inductive Err
  | missing (column : String) (line : Nat)
  | invalid (column : String) (line : Nat) (raw : Str)
deriving DecidableEq

/-- A record as read: angles in degrees as in the text (the conversion of ingest.rs 107-108 is left out). -/
structure Row where
  id : Nat
  ra : F64
  dec : F64
  epoch : F64
  pmRa : Option F64
  pmDec : Option F64
  parallax : Option F64
  radialVelocity : Option F64
  g : Option F64
  bp : Option F64
  rp : Option F64
  quality : Bool
deriving DecidableEq

/-- ingest.rs 60-66: the cell below the first header with the name. -/
def col (hdr fields : List Str) (name : String) : Option Str :=
  ((hdr.findIdx? (· == name.toList)).bind fun i => fields[i]?).bind fun s =>
    if (trim s).isEmpty then none else some (trim s)

/-- ingest.rs 67-79. -/
def optF64 (hdr fields : List Str) (line : Nat) (name : String) : Except Err (Option F64) :=
  match col hdr fields name with
  | none => .ok none
  | some s => match parseFloat s with
    | some v => .ok (some v)
    | none => .error (.invalid name line s)

/-- ingest.rs 80-85. -/
def reqF64 (hdr fields : List Str) (line : Nat) (name : String) : Except Err F64 := do
  match ← optF64 hdr fields line name with
  | some v => .ok v
  | none => .error (.missing name line)

/-- ingest.rs 86-97. -/
def sourceId (hdr fields : List Str) (line : Nat) : Except Err Nat :=
  match col hdr fields "source_id" with
  | none => .error (.missing "source_id" line)
  | some s => match parseUInt (2 ^ 64 - 1) s with
    | some n => .ok n
    | none => .error (.invalid "source_id" line s)

/-- ingest.rs 101-104. -/
def qualityOf (hdr fields : List Str) : Bool :=
  match col hdr fields "quality" with
  | none => true
  | some s => s.map lower == "1".toList || s.map lower == "true".toList || s.map lower == "ok".toList

/-- One row (ingest.rs 86-118). -/
def row (hdr fields : List Str) (line : Nat) : Except Err Row := do
  let id ← sourceId hdr fields line
  let ra ← reqF64 hdr fields line "ra"
  let dec ← reqF64 hdr fields line "dec"
  let epoch ← reqF64 hdr fields line "epoch"
  let pmRa ← optF64 hdr fields line "pmra"
  let pmDec ← optF64 hdr fields line "pmdec"
  let parallax ← optF64 hdr fields line "parallax"
  let radialVelocity ← optF64 hdr fields line "radial_velocity"
  let g ← optF64 hdr fields line "g_mag"
  let bp ← optF64 hdr fields line "bp_mag"
  let rp ← optF64 hdr fields line "rp_mag"
  return ⟨id, ra, dec, epoch, pmRa, pmDec, parallax, radialVelocity, g, bp, rp, qualityOf hdr fields⟩

/-- The fields of a line (ingest.rs 54). -/
def fieldsOf (line : Str) : List Str := (splitChar ',' line).map trim

/-- The loop (ingest.rs 48-120); `n` is the number of the line. -/
def rows : Nat → Option (List Str) → List Str → Except Err (List Row)
  | _, _, [] => .ok []
  | n, hdr, raw :: rest =>
    let line := trim raw
    if line.isEmpty || line.head? == some '#' then rows (n + 1) hdr rest
    else match hdr with
      | none => rows (n + 1) (some ((fieldsOf line).map (·.map lower))) rest
      | some h => do
        let r ← row h (fieldsOf line) n
        let t ← rows (n + 1) hdr rest
        return r :: t

/-- `parse_csv_chunk` (ingest.rs 45-121). -/
def parse (input : Str) : Except Err (List Row) := rows 1 none (lines input)

end Verif.Catalog
