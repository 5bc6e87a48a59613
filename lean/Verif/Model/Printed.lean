import Verif.Model.MathUtils
import Mathlib.Analysis.SpecialFunctions.Log.Base
/-!
# How a value with an uncertainty is printed

`include/goofit/utilities/Uncertain.h:97-110`.  Exact real arithmetic; a text is a list of characters.
-/
set_option autoImplicit false
namespace GooFit

/-- The character of a digit (no counterpart in the code: part of `fmt`). -/
def digitCh (d : Nat) : Char := Char.ofNat (48 + d)

/-- The digits of a whole number, without leading zeros (no counterpart in the code: part of `fmt`). -/
def wholeDigits (n : Nat) : List Char :=
  if n < 10 then [digitCh n] else wholeDigits (n / 10) ++ [digitCh (n % 10)]

/-- The last `k` digits of a number (no counterpart in the code: part of `fmt`). -/
def lastDigits : Nat → Nat → List Char
  | 0, _ => []
  | k + 1, n => lastDigits k (n / 10) ++ [digitCh (n % 10)]

/-- The nearest whole number of a nonnegative number, the even one of two (no counterpart in the code: part of `fmt`). -/
noncomputable def nearestEven (y : ℝ) : Nat :=
  let f := ⌊y⌋₊
  if y - f < 1 / 2 then f
  else if y - f > 1 / 2 then f + 1
  else if f % 2 = 0 then f else f + 1

/-- `fmt::format("{:.{n}f}", x)` (`include/goofit/utilities/Uncertain.h:104, 106`): `n` digits after the point, no point if there are
none; a sign for negative numbers, also when they are rounded to zero. -/
noncomputable def fixedText (n : Nat) (x : ℝ) : List Char :=
  let m := nearestEven (|x| * 10 ^ n)
  (if x < 0 then ['-'] else []) ++ wholeDigits (m / 10 ^ n) ++ (if n = 0 then [] else '.' :: lastDigits n (m % 10 ^ n))

/-- `operator<<` (`include/goofit/utilities/Uncertain.h:98-110`); `plain` is what the stream does with a number by itself.
Simplifications: `log10` is exact; the uncertainty is not NaN. -/
noncomputable def uncertainText (plain : ℝ → List Char) (u : Uncertain ℝ) : List Char :=
  let val := u.value
  let err := u.uncertainty
  if err > 0 ∧ err < 2.5 then
    let numdig := ⌈-Real.logb 10 err + Real.logb 10 2.5⌉.toNat
    fixedText numdig val ++ " +/- ".toList ++ fixedText numdig err
  else if err ≥ 2.5 then fixedText 0 val ++ " +/- ".toList ++ fixedText 0 err
  else plain val ++ " +/- ".toList ++ plain err

end GooFit
