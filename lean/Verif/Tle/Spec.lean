import Verif.Text.Model

/-!
Independent statement of the TLE format rules (Space-Track/CelesTrak column conventions). Nothing
here refers to the definitions of `Model.lean`.
-/
namespace Verif.Tle.Spec

/-- Contribution of one character to the modulo-10 checksum. -/
def weight (c : Char) : Nat :=
  if 48 ≤ c.toNat ∧ c.toNat ≤ 57 then c.toNat - 48 else if c = '-' then 1 else 0

/-- `line` ends in the digit that the modulo-10 rule assigns to the rest of it. -/
def ChecksumOK (line : List Char) : Prop :=
  ∃ body d, line = body ++ [d] ∧ 48 ≤ d.toNat ∧ d.toNat ≤ 57 ∧
    d.toNat - 48 = (body.map weight).sum % 10

/-- The 34 symbols of the leading Alpha-5 position: digits, then letters without I and O. -/
def alpha5Alphabet : List Char := "0123456789ABCDEFGHJKLMNPQRSTUVWXYZ".toList

/-- The digit of weight `10^k` of `n`, as a character. -/
def digitAt (n k : Nat) : Char := Char.ofNat (48 + n / 10 ^ k % 10)

/-- The Alpha-5 field of a number: leading symbol for the ten-thousands, then four digits. -/
def Alpha5Field (n : Nat) (f : List Char) : Prop :=
  ∃ c, alpha5Alphabet[n / 10000]? = some c ∧ f = [c, digitAt n 3, digitAt n 2, digitAt n 1, digitAt n 0]

/-- `w` is a nearest number to `v` among the multiples of `10^e`. -/
def NearestMultiple (e : ℤ) (v w : ℚ) : Prop :=
  (∃ k : ℤ, w = k * (10 : ℚ) ^ e) ∧ |w - v| ≤ (10 : ℚ) ^ e / 2

/-- `w` is `v` rounded to five significant digits. -/
def FiveDigits (v w : ℚ) : Prop :=
  (v = 0 ∧ w = 0) ∨
  ∃ e : ℤ, (10 : ℚ) ^ (e - 1) ≤ |v| ∧ |v| < (10 : ℚ) ^ e ∧ NearestMultiple (e - 5) v w

/-- The values that the eight-column assumed-decimal notation can hold: zero, or a decimal exponent
of one digit with a mantissa that does not round up to 1. -/
def AssumedFits (v : ℚ) : Prop :=
  v = 0 ∨ ∃ e : ℤ, -9 ≤ e ∧ e ≤ 9 ∧ (10 : ℚ) ^ (e - 1) ≤ |v| ∧ |v| < (10 : ℚ) ^ e - (10 : ℚ) ^ (e - 5) / 2

end Verif.Tle.Spec
