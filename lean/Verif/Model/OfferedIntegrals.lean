import Verif.Model.Integrate
/-!
# Integrals that are offered without being declared

`integrate` of `CrystalBallPdf`, `BifurGaussPdf`, `ArgusPdf` and `PolynomialPdf`.  These classes override the
public `integrate` of `GooPdf` but not `hasAnalyticIntegral`, so that only a user calls it.
-/
set_option autoImplicit false
namespace GooFit
section
variable {F : Type} [FpMath F]
open FpOps FpMath

local infixl:65 " +. " => FpOps.add
local infixl:65 " -. " => FpOps.sub
local infixl:70 " *. " => FpOps.mul
local infixl:70 " /. " => FpOps.div

/-- `sqrtPiOver2` (`src/PDFs/basic/CrystalBallPdf.cu:55`). -/
def cbSqrtPiOver2 : F := lit (12533141373/10000000000)

/-- `sqrt2` (`src/PDFs/basic/CrystalBallPdf.cu:56`). -/
def cbSqrt2 : F := lit (14142135624/10000000000)

/-- The Gaussian term between `t1` and `t2` (`src/PDFs/basic/CrystalBallPdf.cu:81` and `104`); `erf` is the
function of the C library. -/
def cbCore (erf : F → F) (sigma t1 t2 : F) : F :=
  sigma *. cbSqrtPiOver2 *. (erf (t2 /. cbSqrt2) -. erf (t1 /. cbSqrt2))

/-- The tail term for the differences `u1 = b - tmin` and `u2` (`src/PDFs/basic/CrystalBallPdf.cu:86-91` with
`u2 = b - tmax`, `98-102` with `u2 = power / absAlpha`); `useLog` is set in lines 66-67. -/
def cbTail (sigma absAlpha power u1 u2 : F) : F :=
  let a := pow (power /. absAlpha) power *. exp (lit (-1/2) *. absAlpha *. absAlpha)
  if FpMath.lt (fabs (power -. lit 1)) (lit (1/100000)) then a *. sigma *. (log u1 -. log u2)
  else a *. sigma /. (lit 1 -. power) *. (lit 1 /. pow u1 (power -. lit 1) -. lit 1 /. pow u2 (power -. lit 1))

/-- The three cases (`src/PDFs/basic/CrystalBallPdf.cu:78-106`). -/
def cbCases (erf : F → F) (sigma absAlpha power tmin tmax : F) : F :=
  let b := power /. absAlpha -. absAlpha
  if ge tmin (neg absAlpha) then lit 0 +. cbCore erf sigma tmin tmax
  else if FpMath.le tmax (neg absAlpha) then lit 0 +. cbTail sigma absAlpha power (b -. tmin) (b -. tmax)
  else lit 0 +. (cbTail sigma absAlpha power (b -. tmin) (power /. absAlpha) +.
    cbCore erf sigma (neg absAlpha) tmax)

/-- `CrystalBallPdf::integrate` (`src/PDFs/basic/CrystalBallPdf.cu:54-109`) with the current values of the four
parameters. -/
def crystalIntegrate (erf : F → F) (mean sigma alpha power lo hi : F) : F :=
  let tmin := (lo -. mean) /. sigma
  let tmax := (hi -. mean) /. sigma
  if FpMath.lt alpha (lit 0) then cbCases erf sigma (fabs alpha) power (neg tmax) (neg tmin)
  else cbCases erf sigma (fabs alpha) power tmin tmax

/-- `BifurGaussPdf::integrate` (`src/PDFs/basic/BifurGaussPdf.cu:37-45`); `M_PI` is the literal of the C
library. -/
def bifurIntegrate (sL sR : F) : F :=
  let root := sqrt (lit 2 *. lit (314159265358979323846/100000000000000000000))
  let normL := lit 1 /. (root *. sL)
  let normR := lit 1 /. (root *. sR)
  lit (1/2) *. normL +. lit (1/2) *. normR

/-- `argus_lower_helper` (`src/PDFs/basic/ArgusPdf.cu:65-77`). -/
def argusHelper (x m0 slope power : F) : F :=
  let t := x /. m0
  if FpMath.le t (lit 1) then lit 0
  else
    let t := t *. t
    let t := t -. lit 1
    x *. pow t power *. exp (slope *. t)

/-- `ArgusPdf::integrate` (`src/PDFs/basic/ArgusPdf.cu:79-96`); `bins` is `integrationBins`, which is -1 until
`setIntegrationFineness` (`include/goofit/PdfBase.h:264`, `src/goofit/PdfBase.cpp:118-121`). -/
def argusIntegrate (bins : Int) (m0 slope power lo hi : F) : F :=
  let norm := (List.range bins.toNat).foldl (fun norm j =>
    norm +. argusHelper ((hi -. lo) /. ofInt bins *. ofNat j +. lo) m0 slope power) (lit 0)
  norm *. ((hi -. lo) /. ofInt bins)

/-- `PolynomialPdf::integrate` (`src/PDFs/basic/PolynomialPdf.cu:212-232`): `low` is the stored lowest degree,
`params` the stored parameters; `center` holds, for a polynomial with an offset, the two entries of the array of
observables that the code subtracts. -/
def polyIntegrate (low : F) (params : List F) (center : Option (F × F)) (lo hi : F) : F :=
  let hi' := match center with | none => hi | some c => hi -. c.1
  let lo' := match center with | none => lo | some c => lo -. c.2
  let stop := params.length + (if center.isSome then 0 else 1)
  (List.range' 2 (stop - 2)).foldl (fun ret i =>
    let powerPlusOne := low +. ofNat i -. lit 2
    let curr := pow hi' powerPlusOne
    let curr := curr -. pow lo' powerPlusOne
    let curr := curr /. powerPlusOne
    ret +. params.getD (i - 1) (lit 0) *. curr) (lit 0)

/-- `integrate(lo, hi)` of the PDFs that offer one without declaring it, with the current values `val` of the
variables: `CrystalBallPdf.cu:54`, `BifurGaussPdf.cu:37`, `ArgusPdf.cu:79`, `PolynomialPdf.cu:212` (all in
`src/PDFs/basic`); elsewhere as in `BasicCall.integrate`.  `bins` is the forced number of integration bins,
`entries` what an offset polynomial reads from the array of observables.
Simplification: the copies of the parameters in the host arrays are taken to be current. -/
def BasicCall.offeredIntegral (erf : F → F) (bins : Int) (entries : F × F) (a : BasicCall F) (val : Nat → F) (lo hi : F) : F :=
  match a with
  | .crystalBall _ mean sigma alpha power =>
    crystalIntegrate erf (val mean) (val sigma) (val alpha) (val power) lo hi
  | .bifurGauss _ _ sL sR => bifurIntegrate (val sL) (val sR)
  | .argus _ m0 slope _ power => argusIntegrate bins (val m0) (val slope) (val power) lo hi
  | .polynomial _ weights low => polyIntegrate (ofNat low) (weights.map val) none lo hi
  | .offsetPolynomial _ weights x0 low =>
    polyIntegrate (ofNat low) ((weights ++ [x0]).map val) (some entries) lo hi
  | a => a.integrate val lo hi

end
end GooFit
