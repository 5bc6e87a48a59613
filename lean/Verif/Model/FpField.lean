import Verif.Model.Tree
import Mathlib.Algebra.Order.Floor.Ring
import Mathlib.Data.Rat.Floor
import Mathlib.Tactic.NormNum
/-!
# Exact arithmetic as an instance of the number operations

Used for concrete examples and for the properties that need arithmetic laws; rounding, overflow
and NaN are absent here.
-/
set_option autoImplicit false
namespace GooFit

/-- `static_cast<int>` of an exact number: truncation towards zero (range not modelled; no counterpart in the code). -/
def truncK {K : Type} [Field K] [LinearOrder K] [IsStrictOrderedRing K] [FloorRing K] (x : K) : Int :=
  if 0 ≤ x then ⌊x⌋ else ⌈x⌉

/-- The operations of an ordered field (no counterpart in the code). -/
@[reducible] def FpOps.ofField (K : Type) [Field K] [LinearOrder K] [IsStrictOrderedRing K]
    [FloorRing K] : FpOps K where
  add := (· + ·)
  sub := (· - ·)
  mul := (· * ·)
  div := (· / ·)
  floor x := (⌊x⌋ : K)
  lit q := (q : K)
  toInt := truncK

/-- Exact rational arithmetic. -/
instance : FpOps ℚ := FpOps.ofField ℚ

theorem exact_rat (n : Int) : FpOps.toInt (FpOps.ofInt n : ℚ) = n := by
  show truncK (((n : ℚ) : ℚ)) = n
  unfold truncK
  split <;> simp

end GooFit
