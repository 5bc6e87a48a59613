import Verif.Spec.Faddeeva
import Mathlib.Algebra.Order.Floor.Semiring
/-!
# What the Landau functions should compute (C83)
-/
set_option autoImplicit false
namespace GooFit.Spec

/-- The midpoint rule with `n` points for the integral of `g` from `a` to `b`. -/
noncomputable def midpointRule (g : ℝ → ℝ) (a b : ℝ) (n : ℕ) : ℝ :=
  ∑ k ∈ Finset.range n, g (a + ((k : ℝ) + 1 / 2) * ((b - a) / n)) * ((b - a) / n)

/-- The number of points for the convolution of a Landau of width `η` with a Gaussian of width `σ`:
one hundred, times the ratio of the widths over three when the Gaussian is the wider one, at most
`10⁵`. -/
noncomputable def convolutionPoints (η σ : ℝ) : ℕ := min 100000 (100 * max 1 ⌊σ / (3 * η)⌋₊)

end GooFit.Spec
