import Verif.Model.ExtRes

/-!
# Decay-time resolution with a cubic spline for the efficiency

Models `src/PDFs/physics/ThreeGaussResolutionSplice.cu`, over ℝ.  Simplifications as
in `Model/Mixing.lean`; sums accumulated in loops are written as sums.
`mytmpgaussian` (lines 338-388) is the function `gaussian` of
`ThreeGaussResolution.cu` again and is not called; the overloads of `BigPhi` and
`SmallPhi` with two arguments (16-19, 26-29) are not called.
-/

set_option autoImplicit false

namespace GooFit

open Finset

/-- `erf` of the C library (library function). -/
noncomputable def erfFun (u : ℝ) : ℝ := 2 / √Real.pi * ∫ v in (0 : ℝ)..u, Real.exp (-v ^ 2)

/-- `BigPhi`, ThreeGaussResolutionSplice.cu:21-24. -/
noncomputable def bigPhi (x : ℝ) : ℝ := 0.5 * (1. + erfFun (x / √2.))

/-- `SmallPhi`, ThreeGaussResolutionSplice.cu:31-34 (`SQRT1o2PI`: line 9). -/
noncomputable def smallPhi (x : ℝ) : ℝ := √(0.5 * (1 / Real.pi)) * Real.exp (-0.5 * x * x)

/-- The loop of `DoubleFactorial`, ThreeGaussResolutionSplice.cu:39-42. -/
noncomputable def dfLoop : Nat → ℝ → ℝ
  | 0, res => res
  | 1, res => res * 1
  | j + 2, res => dfLoop j (res * ((j + 2 : Nat) : ℝ))

/-- `DoubleFactorial`, ThreeGaussResolutionSplice.cu:36-45 (called with `j ≥ 0`). -/
noncomputable def doubleFac (j : Nat) : ℝ := dfLoop j 1.

/-- `FactorialOdd`, ThreeGaussResolutionSplice.cu:47-59. -/
noncomputable def factorialOdd (n : Nat) (u0 u1 : ℝ) : ℝ :=
  let k := (n - 1) / 2
  let constFactorial := doubleFac (2 * k)
  let res := ∑ j ∈ range (k + 1),
    1. / doubleFac (2 * j) * (-smallPhi u1 * u1 ^ (2 * j) + smallPhi u0 * u0 ^ (2 * j))
  res * constFactorial

/-- `FactorialEven`, ThreeGaussResolutionSplice.cu:61-77. -/
noncomputable def factorialEven (n : Nat) (u0 u1 : ℝ) : ℝ :=
  let k := (n - 2) / 2
  let constFactorial := doubleFac (2 * k + 1)
  let res := ∑ j ∈ range (k + 1),
    1. / doubleFac (2 * j + 1) * (-smallPhi u1 * u1 ^ (2 * j + 1) + smallPhi u0 * u0 ^ (2 * j + 1))
  let res := res + bigPhi u1 - bigPhi u0
  res * constFactorial

/-- `EvaluateConvo`, ThreeGaussResolutionSplice.cu:79-89. -/
noncomputable def evaluateConvo (n : Nat) (u0 u1 : ℝ) : ℝ :=
  if n = 0 then bigPhi u1 - bigPhi u0
  else if n = 1 then -smallPhi u1 + smallPhi u0
  else if n % 2 = 0 then factorialEven n u0 u1
  else factorialOdd n u0 u1

/-- The loop of `Factorial`, ThreeGaussResolutionSplice.cu:96-100. -/
noncomputable def facLoop : Nat → ℝ → ℝ
  | 0, res => res
  | j + 1, res => facLoop j (res * ((j + 1 : Nat) : ℝ))

/-- `Factorial`, ThreeGaussResolutionSplice.cu:91-102. -/
noncomputable def factorialOf (j : Nat) : ℝ := if j = 0 then 1. else facLoop j 1.

/-- `BinomCoeff`, ThreeGaussResolutionSplice.cu:104-108. -/
noncomputable def binomCoeff (n k : Nat) : ℝ := factorialOf n / (factorialOf k * factorialOf (n - k))

/-- `EvaluateAcceptance`, ThreeGaussResolutionSplice.cu:110-117. -/
noncomputable def evaluateAcceptance (n : Nat) (sqrt_r : ℝ) (convo powU0 : Nat → ℝ) : ℝ :=
  (∑ k ∈ range (n + 1), binomCoeff n k * convo (n - k) * powU0 k) * (1. / sqrt_r) ^ n

/-- `evaluatedPowU0`, ThreeGaussResolutionSplice.cu:152-155, 175-178, 233-236. -/
noncomputable def powSeq (u0 : ℝ) : Nat → ℝ
  | 0 => 1.
  | i + 1 => powSeq u0 i * -u0

/-- Coefficients of a cubic polynomial (the four arguments `a0` to `a3`, ThreeGaussResolutionSplice.cu:119-128). -/
structure Cubic where
  a0 : ℝ
  a1 : ℝ
  a2 : ℝ
  a3 : ℝ

/-- `EvaluateKnot`, ThreeGaussResolutionSplice.cu:119-189: the new `_P1` and `_P3`. -/
noncomputable def evaluateKnot (P1 P3 Gamma lo hi : ℝ) (a : Cubic) (tprime sigma y : ℝ) : ℝ × ℝ :=
  let sqrt_r := 1. / sigma
  let r := sqrt_r * sqrt_r
  let p_plus := 2 * Gamma * (1. - y) - 2 * tprime * r
  let p_minus := 2 * Gamma * (1. + y) - 2 * tprime * r
  let q := tprime * tprime * r
  let u0_plus := p_plus / (2. * sqrt_r)
  let u0_minus := p_minus / (2. * sqrt_r)
  let preFactor := 0.5 / sqrt_r / sigma
  let preFactor_plus := Real.exp (-0.5 * (q - u0_plus * u0_plus))
  let preFactor_minus := Real.exp (-0.5 * (q - u0_minus * u0_minus))
  let convo := fun i => evaluateConvo i (sqrt_r * lo + u0_plus) (sqrt_r * hi + u0_plus)
  let pw := powSeq u0_plus
  let Ipy := a.a0 * evaluateAcceptance 0 sqrt_r convo pw + a.a1 * evaluateAcceptance 1 sqrt_r convo pw
    + a.a2 * evaluateAcceptance 2 sqrt_r convo pw + a.a3 * evaluateAcceptance 3 sqrt_r convo pw
  let convo := fun i => evaluateConvo i (sqrt_r * lo + u0_minus) (sqrt_r * hi + u0_minus)
  let pw := powSeq u0_minus
  let Imy := a.a0 * evaluateAcceptance 0 sqrt_r convo pw + a.a1 * evaluateAcceptance 1 sqrt_r convo pw
    + a.a2 * evaluateAcceptance 2 sqrt_r convo pw + a.a3 * evaluateAcceptance 3 sqrt_r convo pw
  (P1 + 1. * preFactor * (preFactor_plus * Ipy + preFactor_minus * Imy),
   P3 + 1. * preFactor * (preFactor_plus * Ipy - preFactor_minus * Imy))

/-- `EvaluateAcceptanceGn`, ThreeGaussResolutionSplice.cu:191-201. -/
noncomputable def evaluateAcceptanceGn (n k : Nat) (sqrt_r : ℝ) (convo powU : Nat → ℝ) : ℝ :=
  (∑ i ∈ range (n + k + 1), binomCoeff (n + k) i * convo (n + k - i) * powU i) * (1. / sqrt_r) ^ k

/-- `EvaluateKnotSinCos`, ThreeGaussResolutionSplice.cu:203-288: the new `_P2` and
`_P4`.  Note the repeated squaring of `commonFactor`. -/
noncomputable def evaluateKnotSinCos (P2 P4 Gamma lo hi : ℝ) (a : Cubic) (tprime sigma x : ℝ) : ℝ × ℝ :=
  let sqrt_r := 1. / sigma
  let r := sqrt_r * sqrt_r
  let p := 2 * Gamma - 2 * tprime * r
  let q := tprime * tprime * r
  let u0 := p / (2. * sqrt_r)
  let preFactor := 1. / sqrt_r / sigma * Real.exp (-0.5 * (q - u0 * u0))
  let commonFactor := x * Gamma / sqrt_r
  let convo := fun i => evaluateConvo i (sqrt_r * lo + u0) (sqrt_r * hi + u0)
  let pw := powSeq u0
  let Ig := fun n => a.a0 * evaluateAcceptanceGn n 0 sqrt_r convo pw + a.a1 * evaluateAcceptanceGn n 1 sqrt_r convo pw
    + a.a2 * evaluateAcceptanceGn n 2 sqrt_r convo pw + a.a3 * evaluateAcceptanceGn n 3 sqrt_r convo pw
  let Ig0 := Ig 0
  let Ig1 := Ig 1 * commonFactor
  let commonFactor := commonFactor * commonFactor
  let Ig2 := Ig 2 * commonFactor
  let commonFactor := commonFactor * commonFactor
  let Ig3 := Ig 3 * commonFactor
  let commonFactor := commonFactor * commonFactor
  let Ig4 := Ig 4 * commonFactor
  let commonFactor := commonFactor * commonFactor
  let Ig5 := Ig 5 * commonFactor
  (P2 + preFactor * (Ig0 - 0.5 * Ig2 + 1. / 24. * Ig4),
   P4 + preFactor * (Ig1 - 1. / 6. * Ig3 + 1. / 120. * Ig5))

/-- The local arrays of the device function: `knots` and the four `spline_` arrays
(ThreeGaussResolutionSplice.cu:483-498). -/
structure SpliceTab where
  nKnots : Nat
  knots : Nat → ℝ
  spline : Nat → Cubic

/-- One turn of the loop of `gaussian_splice`, ThreeGaussResolutionSplice.cu:310-335. -/
noncomputable def spliceTurn (t : SpliceTab) (Gamma adjTime xmixing ymixing adjSigma : ℝ) (P : ℝ × ℝ × ℝ × ℝ) (i : Nat) :
    ℝ × ℝ × ℝ × ℝ :=
  let k := evaluateKnot P.1 P.2.2.1 Gamma (t.knots i) (t.knots (i + 1)) (t.spline i) adjTime adjSigma ymixing
  let g := evaluateKnotSinCos P.2.1 P.2.2.2 Gamma (t.knots i) (t.knots (i + 1)) (t.spline i) adjTime adjSigma xmixing
  (k.1, g.1, k.2, g.2)

/-- `gaussian_splice`, ThreeGaussResolutionSplice.cu:290-336. -/
noncomputable def gaussianSplice (t : SpliceTab) (tau adjTime xmixing ymixing adjSigma : ℝ) : ℝ × ℝ × ℝ × ℝ :=
  let Gamma := 1. / tau
  (List.range (t.nKnots - 1)).foldl (spliceTurn t Gamma adjTime xmixing ymixing adjSigma) (0., 0., 0., 0.)

/-- `mygaussian_high`, ThreeGaussResolutionSplice.cu:390-447, which adds to `_P1` to
`_P4`. -/
noncomputable def myGaussianHigh (P : ℝ × ℝ × ℝ × ℝ) (tau adjTime xmixing ymixing adjSigma selbias Tthres C : ℝ) :
    ℝ × ℝ × ℝ × ℝ :=
  let SQRTPIo2 := 1.0 / (2 / √Real.pi)
  let SQRT1o2PI := √(0.5 * (1 / Real.pi))
  let R1o6 := 1.0 / 6.0
  let preConst := C * Real.exp (selbias * Tthres)
  let i1oSqrtA := adjSigma * √2
  let i1oSigma := 1 / adjSigma
  let i1o2SqrtA := 0.5 * i1oSqrtA
  let i1oSigma2 := i1oSigma * i1oSigma
  let NormG := SQRT1o2PI * i1oSigma
  let q := 0.5 * adjTime * adjTime * i1oSigma2
  let Bgn := -adjTime * i1oSigma2
  let Gamma := 1 / tau
  let B := Gamma + Bgn
  let u0 := i1o2SqrtA * (B + selbias)
  let u1 := 1. / i1oSqrtA * Tthres + u0
  let u02 := u0 * u0
  let u12 := u1 * u1
  let F := i1oSqrtA * Real.exp (-q + u02)
  let Ig0 := SQRTPIo2 * erfcFun u1
  let Ig1 := 0.5 * Real.exp (-1 * u1 * u1)
  let Ig2 := Ig1 * u1 + 0.5 * Ig0
  let Ig3 := Ig1 * (u12 + 1)
  let R := xmixing * Gamma * i1oSqrtA
  let R2 := R * R
  let It0 := F * Ig0
  let It1 := F * R * (Ig1 - u0 * Ig0)
  let It2 := F * R2 * (Ig2 - u0 * Ig1 * 2 + u02 * Ig0)
  let It3 := F * R2 * R * (Ig3 - u0 * Ig2 * 3 + u02 * Ig1 * 3 - u0 * u02 * Ig0)
  let P2 := P.2.1 + preConst * NormG * (It0 - 0.5 * It2)
  let P4 := P.2.2.2 + preConst * NormG * (It1 - R1o6 * It3)
  let u0py := i1o2SqrtA * (B - ymixing * Gamma + selbias)
  let u0my := i1o2SqrtA * (B + ymixing * Gamma + selbias)
  let u1py := u0py + 1. / i1oSqrtA * Tthres
  let u1my := u0my + 1. / i1oSqrtA * Tthres
  let Fpy := i1oSqrtA * Real.exp (-q + u0py * u0py)
  let Fmy := i1oSqrtA * Real.exp (-q + u0my * u0my)
  let Ipy := Fpy * SQRTPIo2 * erfcFun u1py
  let Imy := Fmy * SQRTPIo2 * erfcFun u1my
  let P1 := P.1 + preConst * NormG * 0.5 * (Ipy + Imy)
  let P3 := P.2.2.1 + preConst * NormG * 0.5 * (Ipy - Imy)
  (P1, P2, P3, P4)

/-- The arguments of the constructor, ThreeGaussResolutionSplice.cu:646-662, as the
values the variables have. -/
structure SplicePars where
  coreFraction : ℝ
  tailFraction : ℝ
  coreBias : ℝ
  coreScale : ℝ
  tailBias : ℝ
  tailScale : ℝ
  outlBias : ℝ
  outlScale : ℝ
  knots : List ℝ
  a0 : List ℝ
  a1 : List ℝ
  a2 : List ℝ
  a3 : List ℝ
  commonBias : ℝ
  commonWidth : ℝ
  commonBias2 : ℝ
  commonWidth2 : ℝ

/-- The parameters in the order of registration: the eight of the base class
(ThreeGaussResolutionSplice.cu:663), then those of lines 671-684. -/
def SplicePars.params (p : SplicePars) : List ℝ :=
  [p.coreFraction, p.tailFraction, p.coreBias, p.coreScale, p.tailBias, p.tailScale, p.outlBias, p.outlScale]
    ++ [p.commonBias, p.commonWidth, p.commonBias2, p.commonWidth2] ++ p.knots ++ p.a0 ++ p.a1 ++ p.a2 ++ p.a3

/-- Filling the local arrays from the parameters, ThreeGaussResolutionSplice.cu:479-498.
The arrays have 8 (`knots`, `spline_0`) and 7 elements, and the last piece is read
(lines 500-502): with more than 8 knots or fewer than 2 the behaviour is undefined, written
`none`.  So is reading behind the registered parameters, which in the code finds
whatever was registered after them. -/
noncomputable def spliceRead (params : List ℝ) (nKnots : Nat) : Option SpliceTab :=
  let nSplines := nKnots - 1
  if 8 < nKnots ∨ nKnots < 2 ∨ params.length < 12 + nKnots + 4 * nSplines then none
  else
    let param := fun i => params.getD i 0
    some {
      nKnots := nKnots
      knots := fun i => if i = 0 then 0. else param (12 + i)
      spline := fun i =>
        let offset := 12 + nKnots + i
        ⟨param offset, param (offset + nSplines), param (offset + 2 * nSplines), param (offset + 3 * nSplines)⟩ }

/-- `device_threegauss_resolutionSplice`, ThreeGaussResolutionSplice.cu:449-642, with
the arrays of `spliceRead`; `param` is `pc.getParameter`. -/
noncomputable def spliceValue (param : Nat → ℝ) (t : SpliceTab)
    (coshterm costerm sinhterm sinterm tau dtime xmixing ymixing sigma : ℝ) : ℝ :=
  let coreFraction := param 0
  let tailFraction := param 1
  let outlFraction := 1 - coreFraction - tailFraction
  let coreBias := param 2 + param 8
  let coreScale := param 3 * param 9
  let tailBias := param 4 + param 10
  let tailScale := param 5 * param 11
  let outlBias := param 6 + param 10
  let outlScale := param 7 * param 11
  let nSplines := t.nKnots - 1
  let m := (t.spline (nSplines - 1)).a1
  let b := (t.spline (nSplines - 1)).a0
  let lastKnot := t.knots (t.nKnots - 1)
  let fVal := m * lastKnot + b
  let fDeriv := m
  let expSlope := -fDeriv / fVal
  let expConst := fVal
  let c := gaussianSplice t tau (dtime - coreBias * sigma) xmixing ymixing (coreScale * sigma)
  let g := gaussianSplice t tau (dtime - tailBias * sigma) xmixing ymixing (tailScale * sigma)
  let o := gaussianSplice t tau (dtime - outlBias * sigma) xmixing ymixing (outlScale * sigma)
  let c := myGaussianHigh c tau (dtime - coreBias * sigma) xmixing ymixing (coreScale * sigma) expSlope lastKnot expConst
  let g := myGaussianHigh g tau (dtime - tailBias * sigma) xmixing ymixing (tailScale * sigma) expSlope lastKnot expConst
  let o := myGaussianHigh o tau (dtime - outlBias * sigma) xmixing ymixing (outlScale * sigma) expSlope lastKnot expConst
  let P1 := coreFraction * c.1 + tailFraction * g.1 + outlFraction * o.1
  let P2 := coreFraction * c.2.1 + tailFraction * g.2.1 + outlFraction * o.2.1
  let P3 := coreFraction * c.2.2.1 + tailFraction * g.2.2.1 + outlFraction * o.2.2.1
  let P4 := coreFraction * c.2.2.2 + tailFraction * g.2.2.2 + outlFraction * o.2.2.2
  let ret := 0 + coshterm * P1
  let ret := ret + costerm * P2
  let ret := ret - 2 * sinhterm * P3
  ret - 2 * sinterm * P4

/-- The whole device function: `none` is undefined behaviour
(`device_threegauss_resolutionSplice`, ThreeGaussResolutionSplice.cu:449-642). -/
noncomputable def spliceResolution (p : SplicePars)
    (coshterm costerm sinhterm sinterm tau dtime xmixing ymixing sigma : ℝ) : Option ℝ :=
  (spliceRead p.params p.knots.length).map fun t =>
    spliceValue (fun i => p.params.getD i 0) t coshterm costerm sinhterm sinterm tau dtime xmixing ymixing sigma

/-- `evaluatedPowGammaYPlus` and `evaluatedPowGammaYMinus`,
ThreeGaussResolutionSplice.cu:781-786. -/
noncomputable def powGammaY (Gamma yterm : ℝ) : Nat → ℝ
  | 0 => 1.
  | i + 1 => powGammaY Gamma yterm i * Gamma * yterm

/-- `evaluatedPowGamma`, ThreeGaussResolutionSplice.cu:783, 787. -/
noncomputable def powGamma (Gamma : ℝ) : Nat → ℝ
  | 0 => 1.
  | i + 1 => powGamma Gamma i * Gamma

/-- `NormTermY`, ThreeGaussResolutionSplice.cu:690-701. -/
noncomputable def normTermY (tlow thigh yterm Gamma : ℝ) (k : Nat) (pow : Nat → ℝ) : ℝ :=
  ∑ i ∈ range (k + 1),
    -1. / pow (i + 1) * factorialOf k / factorialOf (k - i)
      * (thigh ^ (k - i) * Real.exp (-thigh * Gamma * yterm) - tlow ^ (k - i) * Real.exp (-tlow * Gamma * yterm))

/-- One turn of the loop of `normalization`, ThreeGaussResolutionSplice.cu:791-900: what is
added to `timeIntegralOne`, `Two`, `Three` and `Four`. -/
noncomputable def normPiece (lo hi Gamma xmixing ymixing : ℝ) (a : Cubic) : ℝ × ℝ × ℝ × ℝ :=
  let minus := fun k => normTermY lo hi (1. - ymixing) Gamma k (powGammaY Gamma (1. - ymixing))
  let plus := fun k => normTermY lo hi (ymixing + 1.) Gamma k (powGammaY Gamma (ymixing + 1.))
  let one := fun k => normTermY lo hi 1. Gamma k (powGamma Gamma)
  let xg := xmixing * Gamma
  let ch := fun k => 0.5 * minus k + 0.5 * plus k
  let sh := fun k => 0.5 * minus k - 0.5 * plus k
  let co := fun k => one k - 0.5 * xg ^ 2 * one (k + 2) + 1. / 24. * xg ^ 4 * one (k + 4)
  let si := fun k => xmixing * Gamma * one (k + 1) - 1. / 6. * xg ^ 3 * one (k + 3) + 1. / 120. * xg ^ 5 * one (k + 5)
  (a.a0 * ch 0 + a.a1 * ch 1 + a.a2 * ch 2 + a.a3 * ch 3,
   a.a0 * co 0 + a.a1 * co 1 + a.a2 * co 2 + a.a3 * co 3,
   a.a0 * sh 0 + a.a1 * sh 1 + a.a2 * sh 2 + a.a3 * sh 3,
   a.a0 * si 0 + a.a1 * si 1 + a.a2 * si 2 + a.a3 * si 3)

/-- `ThreeGaussResolutionSplice::normalization`, ThreeGaussResolutionSplice.cu:717-962.
`none` where the code reads behind a vector or throws (`at`). -/
noncomputable def spliceNormalization (p : SplicePars) (di1 di2 di3 di4 tau xmixing ymixing : ℝ) : Option ℝ :=
  let Gamma := 1. / tau
  let nKnots := p.knots.length
  let nSplines := nKnots - 1
  if nKnots < 2 ∨ p.a0.length < nSplines ∨ p.a1.length < nSplines ∨ p.a2.length < nSplines ∨ p.a3.length < nSplines
  then none
  else
    let knots := fun i => p.knots.getD i 0
    let spline := fun i => (⟨p.a0.getD i 0, p.a1.getD i 0, p.a2.getD i 0, p.a3.getD i 0⟩ : Cubic)
    let m := (spline (nSplines - 1)).a1
    let b := (spline (nSplines - 1)).a0
    let lastKnot := knots (nKnots - 1)
    let fVal := m * lastKnot + b
    let expSlope := -m / fVal
    let expConst := fVal
    let low := fun i => normPiece (knots i) (knots (i + 1)) Gamma xmixing ymixing (spline i)
    let high := tailIntegrals (expConst * Real.exp (expSlope * lastKnot)) Gamma expSlope lastKnot xmixing ymixing
    let timeIntegralOne := (∑ i ∈ range nSplines, (low i).1) + high.1
    let timeIntegralTwo := (∑ i ∈ range nSplines, (low i).2.1) + high.2.1
    let timeIntegralThree := (∑ i ∈ range nSplines, (low i).2.2.1) + high.2.2.1
    let timeIntegralFour := (∑ i ∈ range nSplines, (low i).2.2.2) + high.2.2.2
    let ret := timeIntegralOne * (di1 + di2)
    let ret := ret + timeIntegralTwo * (di1 - di2)
    let ret := ret - 2 * timeIntegralThree * di3
    some (ret - 2 * timeIntegralFour * di4)

end GooFit
