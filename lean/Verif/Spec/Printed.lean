import Mathlib.Data.Real.Basic
/-!
# What a decimal number means
-/
set_option autoImplicit false
namespace GooFit.Spec

/-- The value of a digit. -/
def digitOf (c : Char) : ℝ := ((c.toNat - '0'.toNat : Nat) : ℝ)

/-- The whole number a list of digits means. -/
def wholeOf (l : List Char) : ℝ := l.foldl (fun a c => 10 * a + digitOf c) 0

/-- The number meant by digits, perhaps with a point. -/
noncomputable def unsignedOf (l : List Char) : ℝ :=
  wholeOf (l.takeWhile (· ≠ '.')) + wholeOf ((l.dropWhile (· ≠ '.')).drop 1) / 10 ^ ((l.dropWhile (· ≠ '.')).drop 1).length

/-- The number a decimal text means. -/
noncomputable def numberOf : List Char → ℝ
  | '-' :: l => -unsignedOf l
  | l => unsignedOf l

/-- The number of digits after the point. -/
def decimals (l : List Char) : Nat := ((l.dropWhile (· ≠ '.')).drop 1).length

/-- A decimal number: perhaps a sign, then digits, of which the first is not a superfluous zero, then perhaps a point and more
digits. -/
def IsDecimal (l : List Char) : Prop :=
  ∃ (sign whole frac : List Char), l = sign ++ whole ++ frac ∧ (sign = [] ∨ sign = ['-'])
    ∧ whole ≠ [] ∧ (∀ c ∈ whole, c.isDigit) ∧ (whole.head? = some '0' → whole = ['0'])
    ∧ (frac = [] ∨ ∃ f, frac = '.' :: f ∧ f ≠ [] ∧ ∀ c ∈ f, c.isDigit)

end GooFit.Spec
