import Verif.Model.Likelihood
import Verif.Model.Integrate
/-!
# GooFit's own basic PDFs in the fit function of `Model/Likelihood.lean`
-/
set_option autoImplicit false
namespace GooFit
section
variable {F : Type} [FpMath F]
open FpOps FpMath

/-- `hasAnalyticIntegral` and `integrate` as functions of a basic PDF's own parameter values and
constants, which is what the host functions read (`src/PDFs/basic/GaussianPdf.cu:28-35`,
`ExpPdf.cu:121-132`, `StepPdf.cu:52-61`, `include/goofit/PDFs/basic/JohnsonSUPdf.h:24-25`); the same as
`BasicCall.hasAnalyticIntegral` and `BasicCall.integrate` (`C86_analytic_integrals`). -/
def basicAnalytic (k : BasicLeaf) (ps ks : List F) : Option (F → F → F) :=
  match k with
  | .johnsonSU => some fun _ _ => lit 1
  | .step => some (stepIntegrate (ps.headD (lit 0)) (toInt (ks.headD (lit 0))))
  | .gaussian => some fun _ _ => gaussianIntegrate (ps.getD 1 (lit 0))
  | .exp | .expOffset | .expPoly | .expPolyOffset =>
    if ps.length = 1 then some (expIntegrate (ps.headD (lit 0))) else none
  | _ => none

end
end GooFit
