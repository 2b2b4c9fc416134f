import Verif.Text.Lines

/-!
Earth orientation parameters: the C04 reader and interpolation of src/formats/iers/eop.rs and the
providers of src/astro/eop.rs.

Simplifications. Values are exact numbers; the reader keeps infinities and NaN as they are parsed.
The file text is given as one string (an I/O error of the reader is not modelled).
`ModifiedJulianDate::try_new` accepts exactly the finite values. The table of the `tempoch` crate
behind `IersEop` is a parameter.
-/
namespace Verif.Eop
open Verif.Text

/-- `EopValues` (src/formats/iers/eop.rs 41-55, src/astro/eop.rs 57-71): the same six fields. -/
structure Values (α : Type) where
  dut1 : α
  lod : α
  xp : α
  yp : α
  dx : α
  dy : α
deriving DecidableEq

/-- `EopRecord` (src/formats/iers/eop.rs 58-64). -/
structure Rec (κ α : Type) where
  mjd : κ
  eop : Values α
deriving DecidableEq

/-! ### The reader -/

/-- `parse().unwrap_or(0.0)` (src/formats/iers/eop.rs 96-101). -/
def orZero (w : Str) : F64 := (parseFloat w).getD (.num 0)

/-- `v * 1000.0` (src/formats/iers/eop.rs 109-110). -/
def times1000 : F64 → F64
  | .num q => .num (q * 1000)
  | x => x

/-- The ten first fields of a data line (src/formats/iers/eop.rs 82-112); `none`: the line is skipped. -/
def record (w0 w1 w2 w3 w4 w5 w6 w7 w8 w9 : Str) : Option (Rec ℚ F64) :=
  if (parseInt (2 ^ 31 - 1) w0).isNone ∨ (parseInt (2 ^ 31 - 1) w1).isNone ∨ (parseInt (2 ^ 31 - 1) w2).isNone then none
  else
    ((parseFloat w3).bind F64.toRat?).map (fun m =>
      { mjd := m
        eop := { xp := orZero w4
                 yp := orZero w5
                 dut1 := orZero w6
                 lod := orZero w7
                 dx := times1000 (orZero w8)
                 dy := times1000 (orZero w9) } })

/-- One pass of the loop of `read_eop_c04` (src/formats/iers/eop.rs 70-113). -/
def readLine (line : Str) : Option (Rec ℚ F64) :=
  if trimStart line = [] ∨ (trimStart line).head? = some '#' then none
  else
    match words line with
    | w0 :: w1 :: w2 :: w3 :: w4 :: w5 :: w6 :: w7 :: w8 :: w9 :: _ => record w0 w1 w2 w3 w4 w5 w6 w7 w8 w9
    | _ => none

/-- `read_eop_c04` (src/formats/iers/eop.rs 67-115). -/
def read (text : Str) : List (Rec ℚ F64) := (lines text).filterMap readLine

/-! ### Interpolation -/

section
variable {K : Type} [Field K] [LinearOrder K]

/-- The loop of `interpolate` (src/formats/iers/eop.rs 132-141); `none`: index out of bounds. The
first argument bounds the number of passes. -/
def search (recs : List (Rec K K)) (t : K) : Nat → Nat → Nat → Option (Nat × Nat)
  | 0, lo, hi => some (lo, hi)
  | n + 1, lo, hi =>
    if hi - lo > 1 then
      match recs[(lo + hi) / 2]? with
      | none => none
      | some r => if r.mjd ≤ t then search recs t n ((lo + hi) / 2) hi else search recs t n lo ((lo + hi) / 2)
    else some (lo, hi)

/-- `a + f * (b - a)` (src/formats/iers/eop.rs 151-156). -/
def lerp (f a b : K) : K := a + f * (b - a)

/-- The interpolated record (src/formats/iers/eop.rs 142-158). -/
def between (a b : Rec K K) (t : K) : Rec K K :=
  let f := (t - a.mjd) / (b.mjd - a.mjd)
  { mjd := t
    eop := { xp := lerp f a.eop.xp b.eop.xp
             yp := lerp f a.eop.yp b.eop.yp
             dut1 := lerp f a.eop.dut1 b.eop.dut1
             lod := lerp f a.eop.lod b.eop.lod
             dx := lerp f a.eop.dx b.eop.dx
             dy := lerp f a.eop.dy b.eop.dy } }

/-- `interpolate` (src/formats/iers/eop.rs 121-159); the outer `none` is a panic (index out of bounds). -/
def interpolate (recs : List (Rec K K)) (t : K) : Option (Option (Rec K K)) :=
  if recs = [] then some none
  else
    match recs[0]?, recs[recs.length - 1]? with
    | some first, some last =>
      if t ≤ first.mjd then some (some first)
      else if last.mjd ≤ t then some (some last)
      else
        match search recs t recs.length 0 (recs.length - 1) with
        | none => none
        | some (lo, hi) =>
          match recs[lo]?, recs[hi]? with
          | some a, some b => some (some (between a b t))
          | _, _ => none
    | _, _ => none
end

/-! ### Providers -/

/-- `EopError::NoData` (src/astro/eop.rs 96-104). -/
structure NoData where
  jd : ℚ
  mjd : ℚ
deriving DecidableEq

/-- `EopValues::default` (src/astro/eop.rs 73-84). -/
def zeros : Values ℚ := { dut1 := 0, lod := 0, xp := 0, yp := 0, dx := 0, dy := 0 }

/-- `EopValues::jd_ut1` (src/astro/eop.rs 86-92). -/
def jdUt1 (v : Values ℚ) (jdUtc : ℚ) : ℚ := jdUtc + v.dut1 / 86400

/-- What `tempoch::eop::builtin_eop_at` answers; length of day in milliseconds (src/astro/eop.rs 237-248). -/
structure Row where
  dut1 : ℚ
  xp : Option ℚ
  yp : Option ℚ
  dx : Option ℚ
  dy : Option ℚ
  lod : Option ℚ

/-- The active `tempoch` bundle: `eop_start`, `eop_end`, `builtin_eop_at` by modified Julian day. -/
structure Bundle where
  start : Option ℚ
  stop : Option ℚ
  at_ : ℚ → Option Row

/-- `IersEop::mjd_range` (src/astro/eop.rs 211-215). -/
def mjdRange (b : Bundle) : Option (ℚ × ℚ) := b.start.bind (fun s => b.stop.map (fun e => (s, e)))

/-- `f64 as usize` saturates at zero. -/
def asUsize (q : ℚ) : Nat := q.floor.toNat

/-- `IersEop::len` (src/astro/eop.rs 219-224). -/
def len (b : Bundle) : Nat :=
  match mjdRange b with
  | some (s, e) => asUsize (e - s) + 1
  | none => 0

/-- `IersEop::is_empty` (src/astro/eop.rs 228-230). -/
def isEmpty (b : Bundle) : Bool := (mjdRange b).isNone

/-- `IersEop::try_eop_at` (src/astro/eop.rs 234-250). -/
def tryEopAt (b : Bundle) (jdUtc : ℚ) : Except NoData (Values ℚ) :=
  let mjd := jdUtc - 24000005 / 10
  match b.at_ mjd with
  | none => .error { jd := jdUtc, mjd := mjd }
  | some e =>
    .ok { dut1 := e.dut1
          xp := e.xp.getD 0
          yp := e.yp.getD 0
          dx := e.dx.getD 0
          dy := e.dy.getD 0
          lod := (e.lod.map (· / 1000)).getD 0 }

/-- `IersEop::eop_at` (src/astro/eop.rs 252-254). -/
def eopAt (b : Bundle) (jdUtc : ℚ) : Values ℚ :=
  match tryEopAt b jdUtc with
  | .ok v => v
  | .error _ => zeros

/-- `NullEop` (src/astro/eop.rs 162-172). -/
def nullEopAt (_ : ℚ) : Values ℚ := zeros

/-- `AstroContext::eop_at_tt` with the provider `IersEop` (src/coordinates/transform/context.rs
184-192); `utc` is `try_jd_utc_from_tt`, `approx` is `jd_utc_from_tt_delta_t`. -/
def eopAtTt (b : Bundle) (utc : ℚ → Option ℚ) (approx : ℚ → ℚ) (jdTt : ℚ) : Values ℚ :=
  match utc jdTt with
  | some u => eopAt b u
  | none => eopAt b (approx jdTt)

/-- `AstroContext::try_eop_at_tt` (src/coordinates/transform/context.rs 177-180); the error of the
time conversion is kept as `none`. -/
def tryEopAtTt (b : Bundle) (utc : ℚ → Option ℚ) (jdTt : ℚ) : Option (Except NoData (Values ℚ)) :=
  (utc jdTt).map (tryEopAt b)

end Verif.Eop
