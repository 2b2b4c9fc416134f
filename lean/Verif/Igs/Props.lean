import Verif.Igs.Antex
import Verif.Igs.Sinex

/-
ANTEX: where the written catalogue is not the catalogue.
-/
namespace Verif.Igs.Props
open Verif.Text Verif.Igs

theorem sorted_one {α : Type} (p : Str × α) : sorted [p] = [p] := by
  unfold sorted
  exact List.mergeSort_singleton p

theorem write_one (name freq : Str) (p : Pco) : writeAntex [(name, [(freq, p)])] =
    (collect ([headerLine "     1.4            G                  ".toList "ANTEX VERSION / SYST",
    headerLine "ANTEX                                                       ".toList "PCV TYPE / REFANT",
    headerLine [] "END OF HEADER"] ++ ([headerLine [] "START OF ANTENNA", headerLine name "TYPE / SERIAL NO"] ++ (freqLines (freq, p) ++ [headerLine [] "END OF ANTENNA"])))).map unlines := by
  unfold writeAntex
  rw [sorted_one]
  simp only [List.flatMap_cons, List.flatMap_nil, List.append_nil]
  unfold antennaLines
  rw [sorted_one]
  simp only [List.flatMap_cons, List.flatMap_nil, List.append_nil]

/-- What comes back of one offset. -/
def back (name freq : Str) (p : Pco) : Option (Option Pco) :=
  ((collect ([headerLine "     1.4            G                  ".toList "ANTEX VERSION / SYST",
    headerLine "ANTEX                                                       ".toList "PCV TYPE / REFANT",
    headerLine [] "END OF HEADER"] ++ ([headerLine [] "START OF ANTENNA", headerLine name "TYPE / SERIAL NO"] ++ (freqLines (freq, p) ++ [headerLine [] "END OF ANTENNA"])))).map unlines).map
    (fun t => (readAntex t name).bind (fun q => q freq))

theorem back_eq (name freq : Str) (p : Pco) : back name freq p = (writeAntex [(name, [(freq, p)])]).map (fun t => (readAntex t name).bind (fun q => q freq)) := by
  rw [write_one]
  rfl

/-- Disagreement: the promise that reading gives back the catalogue exactly does not hold. Offsets are written to a hundredth of a
millimetre; large ones run together and the offset disappears; a name or a code with blanks at its ends, or a code that is two words, is not
found again; a long name is cut, and cut inside a character is a panic. -/
theorem antex_losses :
    back "A".toList "G01".toList ⟨.num (1 / 3), .num 0, .num 0⟩ = some (some ⟨.num (33 / 100), .num 0, .num 0⟩) ∧
    back "A".toList "G01".toList ⟨.num 0, .num (-1000000), .num 0⟩ = some none ∧
    back "A ".toList "G01".toList ⟨.num 0, .num 0, .num 0⟩ = some none ∧
    back "A".toList "G 01".toList ⟨.num 0, .num 0, .num 0⟩ = some none ∧
    back (List.replicate 61 'A') "G01".toList ⟨.num 0, .num 0, .num 0⟩ = some none ∧
    back (List.replicate 59 'A' ++ ['é']) "G01".toList ⟨.num 0, .num 0, .num 0⟩ = none := by
  decide +kernel

theorem antex_not_exact : ¬ ∀ (name freq : Str) (p : Pco), ∃ text, writeAntex [(name, [(freq, p)])] = some text ∧ (readAntex text name).bind (fun q => q freq) = some p := by
  intro h
  obtain ⟨text, h1, h2⟩ := h "A".toList "G01".toList ⟨.num (1 / 3), .num 0, .num 0⟩
  have h3 := back_eq "A".toList "G01".toList ⟨.num (1 / 3), .num 0, .num 0⟩
  rw [antex_losses.1, h1] at h3
  simp only [Option.map_some, Option.some.injEq] at h3
  rw [h2] at h3
  exact absurd h3 (by decide +kernel)

/-- Values that fit come back to the hundredth: the condition on the width is met by everything below 100 m. -/
theorem pco_fits {q : ℚ} (h : |q| ≤ 99999) : (Sp3.fmtF64 2 (.num q)).length ≤ 9 := by
  show (fmtFixed 2 q).length ≤ 9
  unfold fmtFixed
  have hk : roundHalfEven (|q| * 10 ^ 2) < 10 ^ (2 + 4 + 1) := by
    have h1 := roundHalfEven_spec (|q| * 10 ^ 2) (by positivity)
    have h2 := (abs_le.mp h1).2
    generalize roundHalfEven (|q| * 10 ^ 2) = k at h2 ⊢
    have h3 : (k : ℚ) < 10000000 := by linarith
    have h4 : k < 10000000 := by exact_mod_cast h3
    simpa using h4
  have hl := fixedStr_length_le 2 4 _ hk
  rw [List.length_append]
  have : (if q < 0 then ['-'] else ([] : Str)).length ≤ 1 := by split <;> simp
  omega

example : |(-50 : ℚ)| ≤ 99999 := by norm_num

end Verif.Igs.Props
