import Verif.Naming.Props

/-
The typed wrappers of src/pod/product/naming.rs (287-366) and the columns of a long name.
-/
namespace Verif.Naming
open Verif.Text Verif.Sp3 Verif.Rinex

/-- `sp3_lfn` (naming.rs 287-301). -/
def sp3Lfn (ac : Str) (v : Char) (campaign : Str) (year : Int) (doy hour minute : Nat) (span sample : Str) : Str :=
  lfn ac v campaign year doy hour minute span sample "ORB".toList "SP3".toList

/-- `clk_filename` (naming.rs 319-333). -/
def clkName (ac : Str) (v : Char) (campaign : Str) (year : Int) (doy hour minute : Nat) (span sample : Str) : Str :=
  lfn ac v campaign year doy hour minute span sample "CLK".toList "CLK".toList

/-- `rnx_obs_filename` (naming.rs 352-366). -/
def rnxName (ac : Str) (v : Char) (campaign : Str) (year : Int) (doy hour minute : Nat) (span sample : Str) : Str :=
  lfn ac v campaign year doy hour minute span sample "MO".toList "rnx".toList

namespace Props
open Verif.Naming.Spec (Widths)

/-- The characters of a name from column `a` on, `n` of them (columns from 0). -/
def cols (s : Str) (a n : Nat) : Str := (s.drop a).take n

/-- The value of a field of decimal digits. -/
def number (s : Str) : Option Nat := if s ≠ [] ∧ s.all Char.isDigit = true then some (digitsVal s) else none

/-- A long name read by its columns, as the convention lays them out: centre, version, campaign, date and time, span,
sample rate, then the content. -/
structure Columns (s ac : Str) (v : Char) (campaign : Str) (year doy hour minute : Nat) (span sample content : Str) :
    Prop where
  ac : cols s 0 3 = ac
  version : s[3]? = some v
  campaign : cols s 4 6 = campaign
  bar1 : s[10]? = some '_'
  year : number (cols s 11 4) = some year
  doy : number (cols s 15 3) = some doy
  hour : number (cols s 18 2) = some hour
  minute : number (cols s 20 2) = some minute
  bar2 : s[22]? = some '_'
  span : cols s 23 3 = span
  bar3 : s[26]? = some '_'
  sample : cols s 27 3 = sample
  bar4 : s[30]? = some '_'
  content : s.drop 31 = content

theorem number_pad {w n : Nat} (h : n < 10 ^ (w + 1)) : number (padLeft '0' (w + 1) (natStr n)) = some n := by
  obtain ⟨h1, h2, h3⟩ := padZero_digits (w + 1) n
  have hl := padZero_length h
  have hne : padLeft '0' (w + 1) (natStr n) ≠ [] := by intro e; rw [e] at hl; simp at hl
  unfold number
  rw [if_pos ⟨hne, by first | exact h1 | exact h2⟩, h3]

/-- C227: the name has its fields in their columns, whatever the content tag and the extension. -/
theorem lfn_columns {ac cg sp sm : Str} {v : Char} {y doy h m : Nat} (ft ext : Str)
    (w : Widths ac cg sp sm "ORB".toList y doy h m) :
    Columns (lfn ac v cg y doy h m sp sm ft ext) ac v cg y doy h m sp sm (ft ++ ('.' :: ext)) := by
  have e4 : (padLeft '0' 4 (natStr y)).length = 4 := padZero_length (by have := w.year; omega)
  have e3 : (padLeft '0' 3 (natStr doy)).length = 3 := padZero_length (by have := w.doy; omega)
  have e2 : (padLeft '0' 2 (natStr h)).length = 2 := padZero_length (by have := w.hour; omega)
  have e1 : (padLeft '0' 2 (natStr m)).length = 2 := padZero_length (by have := w.minute; omega)
  have n4 : number (padLeft '0' 4 (natStr y)) = some y := number_pad (by have := w.year; omega)
  have n3 : number (padLeft '0' 3 (natStr doy)) = some doy := number_pad (by have := w.doy; omega)
  have n2 : number (padLeft '0' 2 (natStr h)) = some h := number_pad (by have := w.hour; omega)
  have n1 : number (padLeft '0' 2 (natStr m)) = some m := number_pad (by have := w.minute; omega)
  have h1 := w.ac
  have h2 := w.campaign
  have h3 := w.span
  have h4 := w.sample
  unfold lfn
  simp only [padInt_nat, two]
  generalize padLeft '0' 4 (natStr y) = Y at *
  generalize padLeft '0' 3 (natStr doy) = D at *
  generalize padLeft '0' 2 (natStr h) = H at *
  generalize padLeft '0' 2 (natStr m) = M at *
  match ac, cg, sp, sm, Y, D, H, M, h1, h2, h3, h4, e4, e3, e2, e1 with
  | [_, _, _], [_, _, _, _, _, _], [_, _, _], [_, _, _], [_, _, _, _], [_, _, _], [_, _], [_, _], _, _, _, _, _, _, _, _ =>
    exact ⟨rfl, rfl, rfl, rfl, n4, n3, n2, n1, rfl, rfl, rfl, rfl, rfl, rfl⟩

/-- C227: what the columns of a name say is unique. -/
theorem columns_unique {s ac ac' cg cg' sp sp' sm sm' c c' : Str} {v v' : Char} {y y' d d' h h' m m' : Nat}
    (a : Columns s ac v cg y d h m sp sm c) (b : Columns s ac' v' cg' y' d' h' m' sp' sm' c') :
    ac = ac' ∧ v = v' ∧ cg = cg' ∧ y = y' ∧ d = d' ∧ h = h' ∧ m = m' ∧ sp = sp' ∧ sm = sm' ∧ c = c' :=
  ⟨a.ac ▸ b.ac, Option.some.inj (a.version ▸ b.version), a.campaign ▸ b.campaign, Option.some.inj (a.year ▸ b.year),
    Option.some.inj (a.doy ▸ b.doy), Option.some.inj (a.hour ▸ b.hour), Option.some.inj (a.minute ▸ b.minute),
    a.span ▸ b.span, a.sample ▸ b.sample, a.content ▸ b.content⟩

theorem lfn_suffix (ac : Str) (v : Char) (cg : Str) (y : Int) (d h m : Nat) (sp sm ft ext : Str) :
    ('_' :: (ft ++ ('.' :: ext))) <:+ lfn ac v cg y d h m sp sm ft ext := by
  refine ⟨ac ++ (v :: (cg ++ ('_' :: (padInt 4 y ++ (padLeft '0' 3 (natStr d) ++ (two h ++ (two m ++ ('_' :: (sp ++ ('_' ::
    sm)))))))))), ?_⟩
  simp [lfn]

/-- C227: the three kinds of product never share a name, whatever strings and numbers they are given. -/
theorem kinds_differ (ac ac' : Str) (v v' : Char) (cg cg' : Str) (y y' : Int) (d d' h h' m m' : Nat) (sp sp' sm sm' : Str) :
    sp3Lfn ac v cg y d h m sp sm ≠ clkName ac' v' cg' y' d' h' m' sp' sm' ∧
    sp3Lfn ac v cg y d h m sp sm ≠ rnxName ac' v' cg' y' d' h' m' sp' sm' ∧
    clkName ac v cg y d h m sp sm ≠ rnxName ac' v' cg' y' d' h' m' sp' sm' := by
  have key : ∀ (x x' : Str), x.length = 3 → x'.length = 3 → x ≠ x' → ∀ (f f' : Str),
      lfn ac v cg y d h m sp sm f x ≠ lfn ac' v' cg' y' d' h' m' sp' sm' f' x' := by
    intro x x' h3 h3' hne f f' he
    have s1 : x <:+ lfn ac v cg y d h m sp sm f x :=
      List.IsSuffix.trans (⟨'_' :: (f ++ ['.']), by simp⟩) (lfn_suffix ac v cg y d h m sp sm f x)
    have s2 : x' <:+ lfn ac v cg y d h m sp sm f x := by
      rw [he]
      exact List.IsSuffix.trans (⟨'_' :: (f' ++ ['.']), by simp⟩) (lfn_suffix ac' v' cg' y' d' h' m' sp' sm' f' x')
    exact hne (List.IsSuffix.eq_of_length (List.suffix_of_suffix_length_le s1 s2 (by rw [h3, h3'])) (by rw [h3, h3']))
  exact ⟨key _ _ rfl rfl (by decide) _ _, key _ _ rfl rfl (by decide) _ _, key _ _ rfl rfl (by decide) _ _⟩

/-- C227: the orbit and clock names have their 38 characters and carry tag and extension in columns 31-37; the high-level
orbit name is the full one with the defaults that are documented. -/
theorem product_names {ac cg sp sm : Str} {v : Char} {y doy h m : Nat} (w : Widths ac cg sp sm "ORB".toList y doy h m) :
    Columns (sp3Lfn ac v cg y doy h m sp sm) ac v cg y doy h m sp sm "ORB.SP3".toList ∧
    Columns (clkName ac v cg y doy h m sp sm) ac v cg y doy h m sp sm "CLK.CLK".toList ∧
    Columns (rnxName ac v cg y doy h m sp sm) ac v cg y doy h m sp sm "MO.rnx".toList :=
  ⟨lfn_columns _ _ w, lfn_columns _ _ w, lfn_columns _ _ w⟩

/-- C227: `sp3_filename` names the whole day from midnight in the operational final campaign, with the tag of its content. -/
theorem sp3_is_lfn (s : Str) (y mo d : Nat) (ft : FileType) (n : Nat) (v : Version) :
    sp3Name s y mo d ft n v = lfn s v.char "OPSFIN".toList y (ordinal y mo d) 0 0 "01D".toList (sampleToken n) ft.tag
      "SP3".toList := by
  have t0 : two 0 = "00".toList := by decide +kernel
  unfold sp3Name lfn
  rw [t0]
  simp

theorem length_of_columns {s ac cg sp sm c : Str} {v : Char} {y d h m : Nat} (a : Columns s ac v cg y d h m sp sm c) :
    s.length = 31 + c.length := by
  have h30 : 30 < s.length := by
    have := a.bar4
    by_contra hn
    rw [List.getElem?_eq_none (by omega)] at this
    cases this
  have := congrArg List.length a.content
  rw [List.length_drop] at this
  omega

/-- C227, finding: `igs_lfn` documents a content tag of exactly three characters, and `rnx_obs_filename` passes two: its
names have 37 characters where orbit and clock names have 38, and column 33 is the dot. -/
theorem observation_tag_short {ac cg sp sm : Str} {v : Char} {y doy h m : Nat}
    (w : Widths ac cg sp sm "ORB".toList y doy h m) :
    (rnxName ac v cg y doy h m sp sm).length = 37 ∧ (rnxName ac v cg y doy h m sp sm)[33]? = some '.' ∧
    (sp3Lfn ac v cg y doy h m sp sm).length = 38 ∧ (clkName ac v cg y doy h m sp sm).length = 38 := by
  obtain ⟨a, b, c⟩ := product_names (v := v) w
  refine ⟨length_of_columns c, ?_, length_of_columns a, length_of_columns b⟩
  have := congrArg (fun l : Str => l[2]?) c.content
  simp only [List.getElem?_drop] at this
  exact this

example : Widths "EUR".toList "MGXFIN".toList "01D".toList "30S".toList "ORB".toList 2024 1 0 0 ∧
    rnxName "EUR".toList '0' "MGXFIN".toList 2024 1 0 0 "01D".toList "30S".toList =
      "EUR0MGXFIN_20240010000_01D_30S_MO.rnx".toList :=
  ⟨⟨rfl, rfl, rfl, rfl, rfl, by decide, by decide, by decide, by decide⟩, by decide +kernel⟩

/-- C227, finding: nothing checks the widths. Two different calls give one name when a centre has four characters. -/
theorem widths_unchecked : sp3Lfn "IGSX".toList '0' "OPSFI".toList 2024 1 0 0 "01D".toList "15M".toList =
    sp3Lfn "IGS".toList 'X' "0OPSFI".toList 2024 1 0 0 "01D".toList "15M".toList := by decide +kernel

end Props
end Verif.Naming
