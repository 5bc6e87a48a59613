import Verif.Model.Mixing

/-!
# Decay-time resolution with an efficiency that depends on the decay time

Models `src/PDFs/physics/ThreeGaussResolutionExt.cu`, over ℝ.  Simplifications as
in `Model/Mixing.lean`.  `gaussian2` (lines 11-61) is the function `gaussian` of
`ThreeGaussResolution.cu` again and is not called.
-/

set_option autoImplicit false

namespace GooFit

/-- `gaussian_low`, ThreeGaussResolutionExt.cu:63-121: the four values `_P1` to
`_P4`. -/
noncomputable def gaussLow (tau adjTime xmixing ymixing adjSigma selbias Tthres C : ℝ) : ℝ × ℝ × ℝ × ℝ :=
  let SQRTPIo2 := 1.0 / (2 / √Real.pi)
  let SQRT1o2PI := √(0.5 * (1 / Real.pi))
  let R1o6 := 1.0 / 6.0
  let preConst := C * Real.exp (selbias * Tthres)
  let i1oSqrtA := adjSigma * √2
  let i1oSigma := 1 / adjSigma
  let i1o2SqrtA := 0.5 * i1oSqrtA
  let i1oSigma2 := i1oSigma * i1oSigma
  let NormG := SQRT1o2PI * i1oSigma
  let cC := 0.5 * adjTime * adjTime * i1oSigma2
  let Bgn := -adjTime * i1oSigma2
  let Gamma := 1 / tau
  let B := Gamma + Bgn
  let u0 := i1o2SqrtA * (B + selbias)
  let u1 := 1. / i1oSqrtA * Tthres + u0
  let u02 := u0 * u0
  let F := i1oSqrtA * Real.exp (-cC + u02)
  let Ig0 := SQRTPIo2 * erfcFun u0 - SQRTPIo2 * erfcFun u1
  let Ig1 := 0.5 * Real.exp (-u02) - 0.5 * Real.exp (-u1 * u1)
  let Ig2 := 0.5 * (u0 * Real.exp (-1 * u02) + SQRTPIo2 * erfcFun u0)
    - 0.5 * (u1 * Real.exp (-u1 * u1) + SQRTPIo2 * erfcFun u1)
  let Ig3 := 0.5 * Real.exp (-u02) * (u02 + 1) - 0.5 * Real.exp (-u1 * u1) * (u1 * u1 + 1)
  let R := xmixing * Gamma * i1oSqrtA
  let R2 := R * R
  let It0 := F * Ig0
  let It1 := F * R * (Ig1 - u0 * Ig0)
  let It2 := F * R2 * (Ig2 - u0 * Ig1 * 2 + u02 * Ig0)
  let It3 := F * R2 * R * (Ig3 - u0 * Ig2 * 3 + u02 * Ig1 * 3 - u0 * u02 * Ig0)
  let P2 := preConst * NormG * (It0 - 0.5 * It2)
  let P4 := preConst * NormG * (It1 - R1o6 * It3)
  let u0py := i1o2SqrtA * (B - ymixing * Gamma + selbias)
  let u0my := i1o2SqrtA * (B + ymixing * Gamma + selbias)
  let u1py := u0py + 1. / i1oSqrtA * Tthres
  let u1my := u0my + 1. / i1oSqrtA * Tthres
  let Fpy := i1oSqrtA * Real.exp (-cC + u0py * u0py)
  let Fmy := i1oSqrtA * Real.exp (-cC + u0my * u0my)
  let Ipy := Fpy * SQRTPIo2 * (erfcFun u0py - erfcFun u1py)
  let Imy := Fmy * SQRTPIo2 * (erfcFun u0my - erfcFun u1my)
  let P1 := preConst * NormG * 0.5 * (Ipy + Imy)
  let P3 := preConst * NormG * 0.5 * (Ipy - Imy)
  (P1, P2, P3, P4)

/-- `gaussian_high`, ThreeGaussResolutionExt.cu:123-180. -/
noncomputable def gaussHigh (tau adjTime xmixing ymixing adjSigma selbias Tthres C : ℝ) : ℝ × ℝ × ℝ × ℝ :=
  let SQRTPIo2 := 1.0 / (2 / √Real.pi)
  let SQRT1o2PI := √(0.5 * (1 / Real.pi))
  let R1o6 := 1.0 / 6.0
  let preConst := C * Real.exp (selbias * Tthres)
  let i1oSqrtA := adjSigma * √2
  let i1oSigma := 1 / adjSigma
  let i1o2SqrtA := 0.5 * i1oSqrtA
  let i1oSigma2 := i1oSigma * i1oSigma
  let NormG := SQRT1o2PI * i1oSigma
  let cC := 0.5 * adjTime * adjTime * i1oSigma2
  let Bgn := -adjTime * i1oSigma2
  let Gamma := 1 / tau
  let B := Gamma + Bgn
  let u0 := i1o2SqrtA * (B + selbias)
  let u1 := 1. / i1oSqrtA * Tthres + u0
  let u02 := u0 * u0
  let F := i1oSqrtA * Real.exp (-cC + u02)
  let Ig0 := SQRTPIo2 * erfcFun u1
  let Ig1 := 0.5 * Real.exp (-1 * u1 * u1)
  let Ig2 := Ig1 * 1 + 0.5 * Ig0
  let Ig3 := Ig1 * (u1 + 1)
  let R := xmixing * Gamma * i1oSqrtA
  let R2 := R * R
  let It0 := F * Ig0
  let It1 := F * R * (Ig1 - u0 * Ig0)
  let It2 := F * R2 * (Ig2 - u0 * Ig1 * 2 + u02 * Ig0)
  let It3 := F * R2 * R * (Ig3 - u0 * Ig2 * 3 + u02 * Ig1 * 3 - u0 * u02 * Ig0)
  let P2 := preConst * NormG * (It0 - 0.5 * It2)
  let P4 := preConst * NormG * (It1 - R1o6 * It3)
  let u0py := i1o2SqrtA * (B - ymixing * Gamma + selbias)
  let u0my := i1o2SqrtA * (B + ymixing * Gamma + selbias)
  let u1py := u0py + 1. / i1oSqrtA * Tthres
  let u1my := u0my + 1. / i1oSqrtA * Tthres
  let Fpy := i1oSqrtA * Real.exp (-cC + u0py * u0py)
  let Fmy := i1oSqrtA * Real.exp (-cC + u0my * u0my)
  let Ipy := Fpy * SQRTPIo2 * erfcFun u1py
  let Imy := Fmy * SQRTPIo2 * erfcFun u1my
  let P1 := preConst * NormG * 0.5 * (Ipy + Imy)
  let P3 := preConst * NormG * 0.5 * (Ipy - Imy)
  (P1, P2, P3, P4)

/-- The twelve parameters of `ThreeGaussResolutionExt`,
ThreeGaussResolutionExt.cu:192-204, in the order of the constructor (329-350). -/
structure ExtPars where
  coreFraction : ℝ
  tailFraction : ℝ
  coreBias : ℝ
  coreScale : ℝ
  tailBias : ℝ
  tailScale : ℝ
  outlBias : ℝ
  outlScale : ℝ
  selbiasLow : ℝ
  selbiasHigh : ℝ
  Tthreshold : ℝ
  constantC : ℝ

/-- `device_threegauss_resolutionext`, ThreeGaussResolutionExt.cu:182-325. -/
noncomputable def extResolution (p : ExtPars)
    (coshterm costerm sinhterm sinterm tau dtime xmixing ymixing sigma : ℝ) : ℝ :=
  let outlFraction := 1 - p.coreFraction - p.tailFraction
  let cl := gaussLow tau (dtime - p.coreBias * sigma) xmixing ymixing (p.coreScale * sigma)
    p.selbiasLow p.Tthreshold p.constantC
  let tl := gaussLow tau (dtime - p.tailBias * sigma) xmixing ymixing (p.tailScale * sigma)
    p.selbiasLow p.Tthreshold p.constantC
  let ol := gaussLow tau (dtime - p.outlBias * sigma) xmixing ymixing (p.outlScale * sigma)
    p.selbiasLow p.Tthreshold p.constantC
  let ch := gaussHigh tau (dtime - p.coreBias * sigma) xmixing ymixing (p.coreScale * sigma)
    p.selbiasHigh p.Tthreshold p.constantC
  let th := gaussHigh tau (dtime - p.tailBias * sigma) xmixing ymixing (p.tailScale * sigma)
    p.selbiasHigh p.Tthreshold p.constantC
  let oh := gaussHigh tau (dtime - p.outlBias * sigma) xmixing ymixing (p.outlScale * sigma)
    p.selbiasHigh p.Tthreshold p.constantC
  let P1 := p.coreFraction * (cl.1 + ch.1) + p.tailFraction * (tl.1 + th.1) + outlFraction * (ol.1 + oh.1)
  let P2 := p.coreFraction * (cl.2.1 + ch.2.1) + p.tailFraction * (tl.2.1 + th.2.1)
    + outlFraction * (ol.2.1 + oh.2.1)
  let P3 := p.coreFraction * (cl.2.2.1 + ch.2.2.1) + p.tailFraction * (tl.2.2.1 + th.2.2.1)
    + outlFraction * (ol.2.2.1 + oh.2.2.1)
  let P4 := p.coreFraction * (cl.2.2.2 + ch.2.2.2) + p.tailFraction * (tl.2.2.2 + th.2.2.2)
    + outlFraction * (ol.2.2.2 + oh.2.2.2)
  let ret := 0 + coshterm * P1
  let ret := ret + costerm * P2
  let ret := ret - 2 * sinhterm * P3
  ret - 2 * sinterm * P4

/-- The four integrals over times after the threshold,
ThreeGaussResolutionExt.cu:399-421 (and ThreeGaussResolutionSplice.cu:906-928):
`(One, Two, Thr, Four)`. -/
noncomputable def tailIntegrals (preConstHigh Gamma selBiasHigh Tthres xmixing ymixing : ℝ) : ℝ × ℝ × ℝ × ℝ :=
  let gammaPlusBias := Gamma + selBiasHigh
  let one := 0.5 * preConstHigh
    * (-1. / (ymixing * Gamma - Gamma - selBiasHigh) * (Real.exp (Tthres * (ymixing * Gamma - Gamma - selBiasHigh)))
      - 1. / (-ymixing * Gamma - Gamma - selBiasHigh)
        * (Real.exp (Tthres * (-ymixing * Gamma - Gamma - selBiasHigh))))
  let thr := 0.5 * preConstHigh
    * (-1. / (ymixing * Gamma - Gamma - selBiasHigh) * (Real.exp (Tthres * (ymixing * Gamma - Gamma - selBiasHigh)))
      + 1. / (-ymixing * Gamma - Gamma - selBiasHigh)
        * (Real.exp (Tthres * (-ymixing * Gamma - Gamma - selBiasHigh))))
  let two := preConstHigh
    * (-Real.exp (-gammaPlusBias * Tthres) / (gammaPlusBias * gammaPlusBias + xmixing * xmixing * Gamma * Gamma)
      * (-gammaPlusBias * Real.cos (xmixing * Gamma * Tthres)
        + xmixing * Gamma * Real.sin (xmixing * Gamma * Tthres)))
  let four := preConstHigh
    * (-Real.exp (-gammaPlusBias * Tthres) / (gammaPlusBias * gammaPlusBias + xmixing * xmixing * Gamma * Gamma)
      * (-gammaPlusBias * Real.sin (xmixing * Gamma * Tthres)
        - xmixing * Gamma * Real.cos (xmixing * Gamma * Tthres)))
  (one, two, thr, four)

/-- The four integrals over times before the threshold,
ThreeGaussResolutionExt.cu:373-397. -/
noncomputable def lowIntegrals (preConstLow Gamma selBiasLow Tthres xmixing ymixing : ℝ) : ℝ × ℝ × ℝ × ℝ :=
  let gammaPlusBias := Gamma + selBiasLow
  let one := 0.5 * preConstLow
    * (1. / (ymixing * Gamma - Gamma - selBiasLow)
        * (Real.exp (Tthres * (ymixing * Gamma - Gamma - selBiasLow)) - 1)
      + 1. / (-ymixing * Gamma - Gamma - selBiasLow)
        * (Real.exp (Tthres * (-ymixing * Gamma - Gamma - selBiasLow)) - 1))
  let thr := 0.5 * preConstLow
    * (1. / (ymixing * Gamma - Gamma - selBiasLow)
        * (Real.exp (Tthres * (ymixing * Gamma - Gamma - selBiasLow)) - 1)
      - 1. / (-ymixing * Gamma - Gamma - selBiasLow)
        * (Real.exp (Tthres * (-ymixing * Gamma - Gamma - selBiasLow)) - 1))
  let two := preConstLow
    * (Real.exp (-gammaPlusBias * Tthres) / (gammaPlusBias * gammaPlusBias + xmixing * xmixing * Gamma * Gamma)
        * (-gammaPlusBias * Real.cos (xmixing * Gamma * Tthres)
          + xmixing * Gamma * Real.sin (xmixing * Gamma * Tthres))
      - (-gammaPlusBias) / (gammaPlusBias * gammaPlusBias + xmixing * xmixing * Gamma * Gamma))
  let four := preConstLow
    * (Real.exp (-gammaPlusBias * Tthres) / (gammaPlusBias * gammaPlusBias + xmixing * xmixing * Gamma * Gamma)
        * (-gammaPlusBias * Real.sin (xmixing * Gamma * Tthres)
          - xmixing * Gamma * Real.cos (xmixing * Gamma * Tthres))
      - (-xmixing * Gamma) / (gammaPlusBias * gammaPlusBias + xmixing * xmixing * Gamma * Gamma))
  (one, two, thr, four)

/-- `ThreeGaussResolutionExt::normalization`, ThreeGaussResolutionExt.cu:353-434. -/
noncomputable def extNormalization (p : ExtPars) (di1 di2 di3 di4 tau xmixing ymixing : ℝ) : ℝ :=
  let preConstLow := p.constantC * Real.exp (p.selbiasLow * p.Tthreshold)
  let preConstHigh := p.constantC * Real.exp (p.selbiasHigh * p.Tthreshold)
  let Gamma := 1. / tau
  let low := lowIntegrals preConstLow Gamma p.selbiasLow p.Tthreshold xmixing ymixing
  let high := tailIntegrals preConstHigh Gamma p.selbiasHigh p.Tthreshold xmixing ymixing
  let timeIntegralOne := low.1 + high.1
  let timeIntegralTwo := low.2.1 + high.2.1
  let timeIntegralThr := low.2.2.1 + high.2.2.1
  let timeIntegralFou := low.2.2.2 + high.2.2.2
  let ret := timeIntegralOne * (di1 + di2)
  let ret := ret + timeIntegralTwo * (di1 - di2)
  let ret := ret - 2 * timeIntegralThr * di3
  ret - 2 * timeIntegralFou * di4

end GooFit
