import Mathlib.Analysis.SpecialFunctions.Trigonometric.Bounds

/-
Model of `/repo/src/ephemeris/jpl/eval.rs` 49-102: conversion of a TT Julian Date to ephemeris
seconds. Exact real arithmetic (the tolerance 1e-12 is far below `f64` resolution for most epochs;
rounding is not modelled).
-/
namespace Verif.Interp.Time
noncomputable section

/-- eval.rs 50: `tempoch::J2000_JD_TT_DAY`. -/
def j2000 : ℝ := 2451545

/-- eval.rs 52-55. -/
def naifM0 : ℝ := 6239996 / 10 ^ 6
def naifM1 : ℝ := 199096871 / 10 ^ 15
def naifEb : ℝ := 1671 / 10 ^ 5
def naifK : ℝ := 1657 / 10 ^ 6

/-- eval.rs 93-95: one pass. -/
def etNext (tt et : ℝ) : ℝ :=
  let mean := naifM0 + naifM1 * et
  let ecc := mean + naifEb * Real.sin mean
  tt + naifK * Real.sin ecc

open Classical in
/-- eval.rs 92-101: the loop, `n` passes left. -/
def etLoop (tt : ℝ) : Nat → ℝ → ℝ
  | 0, et => et
  | n + 1, et =>
    let next := etNext tt et
    if |next - et| < 1 / 10 ^ 12 then next else etLoop tt n next

/-- eval.rs 89-102. -/
def jdTtToEt (jd : ℝ) : ℝ :=
  let tt := (jd - j2000) * 86400
  etLoop tt 5 tt

end
end Verif.Interp.Time
