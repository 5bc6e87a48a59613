import Mathlib.Analysis.SpecialFunctions.Pow.Real
/-!
# Specification for C79: a cubic spline
-/
set_option autoImplicit false
namespace GooFit.Spec

/-- The cubic on a cell of width `h` that has values `y0`, `y1` and second derivatives `c0`, `c1` at its ends, at distance `t`
from its left end. -/
noncomputable def cubicCell (h y0 y1 c0 c1 t : ℝ) : ℝ :=
  y0 + t * ((y1 - y0) / h - (c1 + 2 * c0) * h / 6) + t ^ 2 * c0 / 2 + t ^ 3 * (c1 - c0) / (6 * h)

end GooFit.Spec
