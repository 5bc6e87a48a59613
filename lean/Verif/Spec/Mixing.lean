import Mathlib.Analysis.SpecialFunctions.Trigonometric.DerivHyp
import Mathlib.Analysis.SpecialFunctions.Gaussian.GaussianIntegral

/-!
# Mixing of neutral mesons: what the textbooks say
-/

set_option autoImplicit false

namespace GooFit.Spec

open MeasureTheory

/-- The two mass eigenstates propagate independently: widths `(1 ± y) / τ`, mass
difference `x / τ`. -/
noncomputable def eigen1 (τ x y t : ℝ) : ℂ := Complex.exp (-((1 + y) / 2 + x / 2 * Complex.I) * (t / τ))
noncomputable def eigen2 (τ x y t : ℝ) : ℂ := Complex.exp (-((1 - y) / 2 - x / 2 * Complex.I) * (t / τ))

/-- Decay amplitude at time `t` of a meson that was produced in a flavour state
with decay amplitude `A`; `B` is the decay amplitude of the other flavour. -/
noncomputable def timeAmplitude (A B : ℂ) (τ x y t : ℝ) : ℂ :=
  A * ((eigen1 τ x y t + eigen2 τ x y t) / 2) + B * ((eigen1 τ x y t - eigen2 τ x y t) / 2)

/-- Twice the probability density of a decay at time `t`. -/
noncomputable def decayRate (A B : ℂ) (τ x y t : ℝ) : ℝ := 2 * ‖timeAmplitude A B τ x y t‖ ^ 2

/-- Normal distribution. -/
noncomputable def normalDensity (σ u : ℝ) : ℝ := 1 / (σ * √(2 * Real.pi)) * Real.exp (-(u ^ 2) / (2 * σ ^ 2))

/-- A function of the true decay time (zero before production) seen with a
resolution `r`: the value at the measured time `T`. -/
noncomputable def smear (f r : ℝ → ℝ) (T : ℝ) : ℝ := ∫ t in Set.Ioi 0, f t * r (T - t)

/-- Weighted sum of three normal distributions with their own offsets. -/
noncomputable def threeNormals (w1 w2 w3 b1 b2 b3 σ1 σ2 σ3 : ℝ) (u : ℝ) : ℝ :=
  w1 * normalDensity σ1 (u - b1) + w2 * normalDensity σ2 (u - b2) + w3 * normalDensity σ3 (u - b3)

end GooFit.Spec
