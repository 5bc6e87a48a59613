import Verif.Model.Basic
import Verif.Model.FpField
import Mathlib.Analysis.SpecialFunctions.Pow.Real
import Mathlib.Analysis.SpecialFunctions.Complex.Arg
import Mathlib.MeasureTheory.Integral.Bochner.Set
import Mathlib.MeasureTheory.Measure.Lebesgue.Basic
/-!
# Real numbers as an instance of the number operations

For the properties about formulas.  Rounding, overflow and NaN are absent: the C library functions
are the mathematical ones, and `device_Faddeeva_2` (`src/PDFs/basic/VoigtianPdf.cu:51-126`), a
rational approximation, is replaced by the integral it approximates.
-/
set_option autoImplicit false
namespace GooFit
open MeasureTheory

/-- The real numbers with the mathematical functions behind the C library. -/
noncomputable instance FpMath.real : FpMath ℝ where
  toFpOps := FpOps.ofField ℝ
  neg x := -x
  exp := Real.exp
  log := Real.log
  sqrt := Real.sqrt
  sin := Real.sin
  sinh := Real.sinh
  erfc x := 2 / Real.sqrt Real.pi * ∫ t in Set.Ioi x, Real.exp (-t ^ 2)
  fabs x := |x|
  pow x y := x ^ y
  atan2 y x := Complex.arg ⟨x, y⟩
  faddeeva x y :=
    let w := Complex.I / Real.pi * ∫ t : ℝ, Complex.exp (-(t : ℂ) ^ 2) / (⟨x, y⟩ - t)
    (w.re, w.im)
  lt a b := @decide (a < b) (Classical.propDecidable _)
  le a b := @decide (a ≤ b) (Classical.propDecidable _)
  eq a b := @decide (a = b) (Classical.propDecidable _)

end GooFit
