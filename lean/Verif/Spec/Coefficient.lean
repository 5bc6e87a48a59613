import Mathlib.Algebra.Polynomial.Eval.Defs
import Mathlib.Algebra.Polynomial.Eval.Coeff
import Mathlib.Data.Real.Basic
/-!
# The polynomial a `PolynomialPdf` stands for
-/
set_option autoImplicit false
namespace GooFit.Spec

/-- `Σ cᵢ x^(low+i)`. -/
noncomputable def polynomialOf (low : Nat) (cs : List ℝ) : Polynomial ℝ :=
  (cs.zipIdx.map fun t => Polynomial.C t.1 * Polynomial.X ^ (low + t.2)).sum

end GooFit.Spec
