import Mathlib.Algebra.Order.Field.Basic
import Mathlib.Algebra.BigOperators.Group.Finset.Basic
/-!
# Specification for C31: discrete correlation and convolution
-/
set_option autoImplicit false
namespace GooFit.Spec
variable {K : Type} [Field K]

/-- `∑ M(t) R(t - x)` over the centres `t` of `n` bins of width `step` from `lo` on. -/
def correlation (M R : K → K) (lo step : K) (n : Nat) (x : K) : K :=
  ∑ i ∈ Finset.range n, M (lo + ((i : K) + 1 / 2) * step) * R (lo + ((i : K) + 1 / 2) * step - x)

/-- The convolution promised in `include/goofit/PDFs/combine/ConvolutionPdf.h`: `∑ M(t) R(x - t)`. -/
def convolution (M R : K → K) (lo step : K) (n : Nat) (x : K) : K :=
  ∑ i ∈ Finset.range n, M (lo + ((i : K) + 1 / 2) * step) * R (x - (lo + ((i : K) + 1 / 2) * step))

end GooFit.Spec
