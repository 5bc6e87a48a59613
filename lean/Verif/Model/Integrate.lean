import Verif.Model.BasicCtor
/-!
# Analytic integrals

`hasAnalyticIntegral` and `integrate` of the basic PDFs.  `GooPdf`'s own versions return `false` and 0
(`src/PDFs/GooPdf.cpp:13-15`).
-/
set_option autoImplicit false
namespace GooFit
section
variable {F : Type} [FpMath F]
open FpOps FpMath

/-- `hasAnalyticIntegral`: `include/goofit/PDFs/basic/JohnsonSUPdf.h:25`, `StepPdf.h:28`,
`GaussianPdf.h:24`; for the four forms of `ExpPdf` the test that there is one parameter
(`ExpPdf.h:35`); `false` elsewhere (`src/PDFs/GooPdf.cpp:15`, `ArgusPdf.h:34`, `KinLimitBWPdf.h:56`,
`BernsteinPdf.h:15`, `ScaledGaussianPdf.h:28`). -/
def BasicCall.hasAnalyticIntegral (a : BasicCall F) : Bool :=
  match a with
  | .johnsonSU .. | .step .. | .gaussian .. => true
  | .exp .. | .expOffset .. | .expPoly .. | .expPolyOffset .. => a.params.length == 1
  | _ => false

/-- `GaussianPdf::integrate` (`src/PDFs/basic/GaussianPdf.cu:28-35`) with `root2`
(`include/goofit/GlobalCudaDefines.h:137`); the limits are not used. -/
def gaussianIntegrate (sigma : F) : F :=
  mul sigma (mul (lit (14142135623730951/10000000000000000)) (sqrt (atan2 (lit 0) (neg (lit 1)))))

/-- `ExpPdf::integrate` (`src/PDFs/basic/ExpPdf.cu:121-132`). -/
def expIntegrate (alpha lo hi : F) : F :=
  if FpMath.eq (lit 0) alpha then sub hi lo
  else div (sub (exp (mul alpha hi)) (exp (mul alpha lo))) alpha

/-- `StepPdf::integrate` (`src/PDFs/basic/StepPdf.cu:52-61`). -/
def stepIntegrate (x0 : F) (up : Int) (lo hi : F) : F := if 1 = up then sub hi x0 else sub x0 lo

/-- `integrate(lo, hi)` with the current values `val` of the variables.  Only for PDFs that declare an
analytic integral; the remaining ones return 0 here, although `PolynomialPdf`, `ArgusPdf`,
`BifurGaussPdf` and `CrystalBallPdf` have an `integrate` that nothing calls (Model/OfferedIntegrals).  `ExpPdf` takes its first
parameter whichever constructor was used; a missing one is 0 here
(`include/goofit/PDFs/GooPdf.h:71`; the overrides are cited case by case). -/
def BasicCall.integrate (a : BasicCall F) (val : Nat → F) (lo hi : F) : F :=
  match a with
  | .johnsonSU .. => lit 1
  | .step _ x0 up => stepIntegrate (val x0) (toInt (ofInt up : F)) lo hi
  | .gaussian _ _ sigma => gaussianIntegrate (val sigma)
  | .exp .. | .expOffset .. | .expPoly .. | .expPolyOffset .. =>
    expIntegrate ((a.params.map val).headD (lit 0)) lo hi
  | _ => lit 0

end
end GooFit
