import Mathlib.Analysis.SpecialFunctions.Complex.Log
import Mathlib.Analysis.SpecialFunctions.Gaussian.GaussianIntegral
import Mathlib.MeasureTheory.Measure.Lebesgue.Basic
/-!
# What the complex error function and the Voigt profile are (C82)
-/
set_option autoImplicit false
namespace GooFit.Spec
open MeasureTheory

/-- The complex error function `w(z) = (i/π) ∫ exp(-t²)/(z - t) dt` above the real line. -/
noncomputable def faddeeva (z : ℂ) : ℂ :=
  Complex.I / Real.pi * ∫ t : ℝ, Complex.exp (-(t : ℂ) ^ 2) / (z - t)

/-- The normal density of mean 0 and standard deviation `σ`. -/
noncomputable def smearingDensity (σ t : ℝ) : ℝ :=
  1 / (σ * Real.sqrt (2 * Real.pi)) * Real.exp (-t ^ 2 / (2 * σ ^ 2))

/-- The Breit-Wigner (Cauchy) density with maximum at 0 and full width `Γ` at half maximum. -/
noncomputable def breitWignerDensity (Γ t : ℝ) : ℝ :=
  Γ / (2 * Real.pi) / (t ^ 2 + Γ ^ 2 / 4)

/-- The Voigt profile: a Breit-Wigner of mean `m` and width `Γ` smeared with a Gaussian resolution
`σ` (`include/goofit/PDFs/basic/VoigtianPdf.h:7-21`, normalised to one). -/
noncomputable def voigt (x m σ Γ : ℝ) : ℝ :=
  ∫ t : ℝ, breitWignerDensity Γ (t - m) * smearingDensity σ (t - x)

end GooFit.Spec
