import Verif.Spec.Julian
import Verif.Model.Ini
import Mathlib.Data.Nat.Digits.Defs
/-!
# Two-line elements: the format (columns counted from 1)
-/
namespace S2E.Tle
open Log

/-- Decimal digits. -/
def Digits (s : Str) : Prop := ∀ c ∈ s, c ∈ "0123456789".toList

/-- Decimal digits, with blanks for zeros. -/
def Digits0 (s : Str) : Prop := ∀ c ∈ s, c ∈ " 0123456789".toList

/-- The number written with some characters (a blank is 0), most significant first. -/
def numeral (s : Str) : ℕ := Nat.ofDigits 10 (s.reverse.map fun c => " 123456789".toList.idxOf (if c = '0' then ' ' else c))

/-- A whole number at the right end of a field. -/
def Whole (width : ℕ) (s : Str) (n : ℕ) : Prop :=
  s.length = width ∧ ∃ k ds, s = List.replicate k ' ' ++ ds ∧ Digits ds ∧ ds ≠ [] ∧ n = numeral ds

/-- A number with a decimal point at the right end of a field, `frac` digits after the point and at least `whole` before it. -/
def Decimal (width whole frac : ℕ) (s : Str) (x : ℝ) : Prop :=
  s.length = width ∧ ∃ k ds fs, s = List.replicate k ' ' ++ ds ++ ['.'] ++ fs ∧ Digits ds ∧ whole ≤ ds.length ∧ Digits fs ∧ fs.length = frac ∧
    x = numeral (ds ++ fs) / 10 ^ frac

/-- A sign and its factor. -/
def Sign (c : Char) (x : ℝ) : Prop := c = ' ' ∧ x = 1 ∨ c = '+' ∧ x = 1 ∨ c = '-' ∧ x = -1

/-- The first derivative: a sign, the decimal point and 8 digits. -/
def Signed (s : Str) (x : ℝ) : Prop := ∃ c σ fs, s = c :: '.' :: fs ∧ Sign c σ ∧ Digits fs ∧ fs.length = 8 ∧ x = σ * numeral fs / 10 ^ 8

/-- A number with an assumed decimal point and a power of ten: a sign, 5 digits, and the sign and the digit of the exponent. -/
def Powered (digits : Str → Prop) (s : Str) (x : ℝ) : Prop := ∃ c σ fs c' σ' d, s = c :: fs ++ [c', d] ∧ Sign c σ ∧ digits fs ∧ fs.length = 5 ∧
  (c' = ' ' ∧ σ' = (1 : ℤ) ∨ c' = '+' ∧ σ' = 1 ∨ c' = '-' ∧ σ' = -1) ∧ Digits [d] ∧ x = σ * numeral fs / 10 ^ 5 * (10 : ℝ) ^ (σ' * numeral [d])

/-- A character that is printed, or a blank. -/
def Printed (c : Char) : Prop := 32 ≤ c.toNat ∧ c.toNat < 127

/-- What the first line says: year of the epoch (two digits), day of the year with fraction, first and second derivative of the mean motion as given
(revolutions per day squared, divided by 2; per day cubed, divided by 6) and B*. -/
structure Says1 (line : Str) (year : ℕ) (days ndot nddot bstar : ℝ) : Prop where
  is : ∃ sat cls desig yr day n1 n2 b rest n,
    line = "1 ".toList ++ sat ++ [cls, ' '] ++ desig ++ [' '] ++ yr ++ day ++ [' '] ++ n1 ++ [' '] ++ n2 ++ [' '] ++ b ++ [' '] ++ rest ∧
    Whole 5 sat n ∧ cls ∈ ['U', 'C', 'S', ' '] ∧ desig.length = 8 ∧ (∀ c ∈ desig, Printed c) ∧ Digits yr ∧ yr.length = 2 ∧ year = numeral yr ∧
    Decimal 12 0 8 day days ∧ Signed n1 ndot ∧ Powered Digits0 n2 nddot ∧ Powered Digits b bstar ∧ 7 ≤ rest.length ∧ ∀ c ∈ rest, Printed c

/-- What the second line says: number of the satellite, inclination, right ascension of the node, eccentricity, argument of perigee and mean anomaly in degrees,
revolutions per day. -/
structure Says2 (line : Str) (sat : ℕ) (incl node ecc peri anomaly motion : ℝ) : Prop where
  is : ∃ s i o c e w m n rest,
    line = "2 ".toList ++ s ++ [' '] ++ i ++ [' '] ++ o ++ [c] ++ e ++ [' '] ++ w ++ [' '] ++ m ++ [' '] ++ n ++ rest ∧
    Whole 5 s sat ∧ Decimal 8 0 4 i incl ∧ Decimal 8 0 4 o node ∧ Printed c ∧ Digits0 e ∧ e.length = 7 ∧ ecc = numeral e / 10 ^ 7 ∧ Decimal 8 0 4 w peri ∧
    Decimal 8 0 4 m anomaly ∧ Decimal 11 1 8 n motion ∧ ∀ x ∈ rest, Printed x

end S2E.Tle
