import Verif.PropsStrings
import Mathlib.Data.Int.Log
import Mathlib.Algebra.Order.Round
import Mathlib.Data.Rat.Floor
import Mathlib.Tactic.Linarith
import Mathlib.Tactic.Positivity
import Mathlib.Tactic.Ring
import Mathlib.Tactic.NormNum
/-
Floating point values as texts: `ToString<float>`, `ToString<double>` (ToString.h lines 183-214) and `FromStringDoubleAndFloat` (FromString.h lines 92-139) with
its arithmetic. A finite value of `float` or `double` is the rational number it stands for; every arithmetic operation gives the exact result rounded to the
nearest number of `p` significant bits, ties to even (IEEE 754; `p` is 24 for `float` and 53 for `double`; no fused multiply-add, no extended precision).
Left out: the sign of zero, infinities and NaN, and the limits of the exponent. The operations of these functions stay inside these limits when a text has at
most 37 digits after the point; the theorems say so.
-/
set_option linter.unusedSectionVars false
namespace MVault.Fp
open MVault.Str (Out decDigits fromStringDecimal Decimal)

/-- Nearest integer, ties to even. FromString.h and ToString.h leave this to the arithmetic of the platform (IEEE 754); FromString.h lines 81-168. -/
def rne (x : ℚ) : Int :=
  if x - ⌊x⌋ < 1 / 2 then ⌊x⌋ else if 1 / 2 < x - ⌊x⌋ then ⌊x⌋ + 1 else if ⌊x⌋ % 2 = 0 then ⌊x⌋ else ⌊x⌋ + 1

/-- The distance of the numbers with `p` significant bits near `x`. FromString.h and ToString.h leave this to the arithmetic of the platform (IEEE 754); FromString.h lines 81-168. -/
def ulp (p : Nat) (x : ℚ) : ℚ := (2 : ℚ) ^ (Int.log 2 |x| + 1 - p)

/-- Rounding to `p` significant bits. FromString.h and ToString.h leave this to the arithmetic of the platform (IEEE 754); FromString.h lines 81-168. -/
def rnd (p : Nat) (x : ℚ) : ℚ := if x = 0 then 0 else rne (x / ulp p x) * ulp p x

/-- `coeff` after `n` digits, FromString.h lines 121 and 125: `coeff /= 10`, starting from 1. -/
def coeff (p : Nat) : Nat → ℚ
  | 0 => 1
  | n + 1 => rnd p (coeff p n / 10)

/-- The result, FromString.h lines 130-132: `data = T(integer) + T(fractional) * coeff; if (isNegative) data *= -1`. -/
def evalDecimal (p : Nat) (d : Decimal) : ℚ :=
  let x := rnd p (rnd p d.integer + rnd p (rnd p d.fractional * coeff p d.places))
  if d.neg = true then rnd p (x * -1) else x

/-- `FromString<float>` (`p` = 24) and `FromString<double>` (`p` = 53), FromString.h lines 92-160. -/
def fromStringFloat (p : Nat) (s : List Char) : Out ℚ :=
  match fromStringDecimal s with
  | .ub => .ub
  | .reject => .reject
  | .ok d => .ok (evalDecimal p d)

/-- `n` decimal digits with leading zeros. ToString.h lines 242-260. -/
def fixedDigits : Nat → Nat → List Char
  | 0, _ => []
  | n + 1, m => fixedDigits n (m / 10) ++ [Char.ofNat (48 + m % 10)]

/-- `std::to_string` of a floating point value (`printf` with `%f`): six digits after the point, the exact value rounded to nearest, ties to even. ToString.h lines 242-260. -/
def toStringFloat (x : ℚ) : List Char :=
  let n := (rne (|x| * 10 ^ 6)).toNat
  (if x < 0 then ['-'] else []) ++ decDigits (n / 10 ^ 6) ++ '.' :: fixedDigits 6 (n % 10 ^ 6)

end MVault.Fp
