import Mathlib.Analysis.SpecialFunctions.Pow.Real
import Mathlib.Analysis.SpecialFunctions.Integrals.Basic
/-!
# What the integrals of C109 are compared with

The error function, and the shape of a Crystal Ball peak as a function of the signed distance `u` from its mean in
widths, counted towards its tail.
-/
set_option autoImplicit false
namespace GooFit.Spec

/-- The error function. -/
noncomputable def erf (x : ℝ) : ℝ := 2 / Real.sqrt Real.pi * ∫ v in (0 : ℝ)..x, Real.exp (-v ^ 2)

/-- A Gaussian up to `u = a`, then a power law. -/
noncomputable def crystalShape (a p u : ℝ) : ℝ :=
  if u ≤ a then Real.exp (-u ^ 2 / 2) else Real.exp (-a ^ 2 / 2) * (p / a / (p / a - a + u)) ^ p

/-- A Crystal Ball peak: for a positive `α` the tail is on the right, for a negative one on the left. -/
noncomputable def crystalBall (m σ α p X : ℝ) : ℝ :=
  crystalShape |α| p (if 0 < α then (X - m) / σ else -((X - m) / σ))

end GooFit.Spec
