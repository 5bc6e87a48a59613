import Mathlib.Data.Real.Basic
import Mathlib.Algebra.Order.Field.Power
/-!
# Specification: floating-point numbers and rounding

Binary floating-point numbers with `p` bits of mantissa and no bounds on the exponent, so without
overflow and underflow.  IEEE doubles have `p = 53`.
-/
set_option autoImplicit false
namespace GooFit.Spec

/-- The floating-point numbers with `p` bits: `m * 2^e` with `|m| ≤ 2^p` (`m = ±2^p` gives nothing
new). -/
def IsFloat (p : Nat) (x : ℝ) : Prop := ∃ (m e : ℤ), |m| ≤ 2 ^ p ∧ x = m * (2 : ℝ) ^ e

/-- `fl` rounds to a nearest floating-point number (ties either way). -/
def RoundsToNearest (p : Nat) (fl : ℝ → ℝ) : Prop :=
  ∀ x, IsFloat p (fl x) ∧ ∀ y, IsFloat p y → |fl x - x| ≤ |y - x|

end GooFit.Spec
