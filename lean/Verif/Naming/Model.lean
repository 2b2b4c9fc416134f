import Verif.Rinex.Model
import Verif.Calendar.Spec

/-
Model of src/pod/product/naming.rs: the names of product files. chrono's dates are dates of the calendar with a year that is not negative:
`date - date` counts the days between them and `ordinal` the days since the first of January.
-/
namespace Verif.Naming
open Verif.Text Verif.Sp3 Verif.Rinex Verif.Calendar

/-- naming.rs 59-64. -/
inductive FileType where | positionOnly | positionVelocity
deriving DecidableEq, Repr

/-- naming.rs 76-81. -/
def FileType.tag : FileType → Str
  | .positionOnly => "ORB".toList
  | .positionVelocity => "OBV".toList

/-- naming.rs 95-102. -/
inductive Version where | a | c | d
deriving DecidableEq, Repr

/-- naming.rs 114-120. -/
def Version.char : Version → Char
  | .a => 'a'
  | .c => 'c'
  | .d => 'd'

/-- naming.rs 143-151. -/
def sampleToken (s : Nat) : Str :=
  if s < 60 then padLeft '0' 2 (natStr s) ++ ['S']
  else if s < 3600 then padLeft '0' 2 (natStr (s / 60)) ++ ['M']
  else padLeft '0' 2 (natStr (s / 3600)) ++ ['H']

/-- chrono's `ordinal`. -/
def ordinal (y m d : Nat) : Nat := dayNumber y m d - dayNumber y 1 1 + 1

/-- naming.rs 252-268. -/
def lfn (ac : Str) (version : Char) (campaign : Str) (year : Int) (doy hour minute : Nat) (span sample fileType ext : Str) : Str :=
  ac ++ (version :: (campaign ++ ('_' :: (padInt 4 year ++ (padLeft '0' 3 (natStr doy) ++ (two hour ++ (two minute ++ ('_' :: (span ++ ('_' ::
    (sample ++ ('_' :: (fileType ++ ('.' :: ext))))))))))))))

/-- naming.rs 177-191. -/
def sp3Name (satellite : Str) (y m d : Nat) (ft : FileType) (sample : Nat) (v : Version) : Str :=
  satellite ++ (v.char :: ("OPSFIN_".toList ++ (padInt 4 y ++ (padLeft '0' 3 (natStr (ordinal y m d)) ++ ("0000_01D_".toList ++
    (sampleToken sample ++ ('_' :: (ft.tag ++ ".SP3".toList))))))))

/-- naming.rs 215: the days since 1980-01-06. -/
def sinceGps (y m d : Nat) : Int := (dayNumber y m d : Int) - dayNumber 1980 1 6

/-- naming.rs 213-219: `/` and `%` of Rust round towards zero. -/
def shortName (ac : Str) (y m d : Nat) : Str :=
  ac ++ (padInt 4 ((sinceGps y m d).tdiv 7) ++ (intStr ((sinceGps y m d).tmod 7) ++ ".sp3".toList))

end Verif.Naming
