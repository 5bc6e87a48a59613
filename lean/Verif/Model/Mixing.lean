import Mathlib.Analysis.SpecialFunctions.Trigonometric.DerivHyp
import Mathlib.Analysis.SpecialFunctions.Gaussian.GaussianIntegral

/-!
# Time-dependent amplitudes: mixing and decay-time resolution

Models `src/PDFs/physics/TruthResolution.cu`, `ThreeGaussResolution.cu` and the
part of `src/PDFs/physics/Amp3Body_TD.cu` that turns the two amplitudes of an
event into a rate and the integrals over the Dalitz plot into a normalisation,
over ℝ and ℂ.

Simplifications.  Numbers are exact.  `M_PI` and the other constants of `cmath`
are the numbers they stand for, and `erfc` is the function defined by its
integral.  The parameters that the device functions read from the parameter
container are arguments.
-/

set_option autoImplicit false

namespace GooFit

open MeasureTheory

/-- `device_truth_resolution`, TruthResolution.cu:6-27. -/
noncomputable def truthResolution (coshterm costerm sinhterm sinterm tau dtime xmixing ymixing : ℝ) : ℝ :=
  let dtime := dtime / tau
  let ret := 0 + coshterm * Real.cosh (ymixing * dtime)
  let ret := ret + costerm * Real.cos (xmixing * dtime)
  let ret := ret - 2 * sinhterm * Real.sinh (ymixing * dtime)
  let ret := ret - 2 * sinterm * Real.sin (xmixing * dtime)
  ret * Real.exp (-dtime)

/-- `TruthResolution::normalization`, TruthResolution.cu:58-71. -/
noncomputable def truthNormalization (di1 di2 di3 di4 tau xmixing ymixing : ℝ) : ℝ :=
  let timeIntegralOne := tau / (1 - ymixing * ymixing)
  let timeIntegralTwo := tau / (1 + xmixing * xmixing)
  let timeIntegralThr := ymixing * timeIntegralOne
  let timeIntegralFou := xmixing * timeIntegralTwo
  let ret := timeIntegralOne * (di1 + di2)
  let ret := ret + timeIntegralTwo * (di1 - di2)
  let ret := ret - 2 * timeIntegralThr * di3
  ret - 2 * timeIntegralFou * di4

/-- `device_truth_resolution_average_tau`, TruthResolution.cu:29-44. -/
noncomputable def truthAverageTau (A2 B2 ABr ABi xmixing ymixing tau : ℝ) : ℝ :=
  let a := A2 - B2
  let b := 2 * ABi
  let c := A2 + B2
  let d := 2 * ABr
  ((xmixing * xmixing + 1) * (ymixing * ymixing - 1)
      * (((a * tau * (xmixing * xmixing - 1) + 2 * b * tau * xmixing))
          / ((xmixing * xmixing + 1) * (xmixing * xmixing + 1))
        + (c * (-(tau * ymixing * ymixing) - tau) + d * (2 * tau) * ymixing)
          / ((ymixing * ymixing - 1) * (ymixing * ymixing - 1))))
    / ((ymixing * ymixing - 1) * (b * xmixing - a) + (xmixing * xmixing + 1) * (c - d * ymixing))

/-- `erfc` of the C library (library function). -/
noncomputable def erfcFun (u : ℝ) : ℝ := 2 / √Real.pi * ∫ v in Set.Ioi u, Real.exp (-v ^ 2)

/-- `gaussian`, ThreeGaussResolution.cu:11-61: the four values `_P1` to `_P4`. -/
noncomputable def gaussRes (tau adjTime xmixing ymixing adjSigma selbias : ℝ) : ℝ × ℝ × ℝ × ℝ :=
  let SQRTPIo2 := 1.0 / (2 / √Real.pi)
  let SQRT1o2PI := √(0.5 * (1 / Real.pi))
  let R1o6 := 1.0 / 6.0
  let i1oSqrtA := adjSigma * √2
  let i1oSigma := 1 / adjSigma
  let i1o2SqrtA := 0.5 * i1oSqrtA
  let i1oSigma2 := i1oSigma * i1oSigma
  let NormG := SQRT1o2PI * i1oSigma
  let C := 0.5 * adjTime * adjTime * i1oSigma2
  let Bgn := -adjTime * i1oSigma2
  let Gamma := 1 / tau
  let B := Gamma + Bgn
  let u0 := i1o2SqrtA * (B + selbias)
  let u02 := u0 * u0
  let F := i1oSqrtA * Real.exp (-C + u02)
  let Ig0 := SQRTPIo2 * erfcFun u0
  let Ig1 := 0.5 * Real.exp (-u02)
  let Ig2 := Ig1 * u0 + 0.5 * Ig0
  let Ig3 := Ig1 * (u02 + 1)
  let R := xmixing * Gamma * i1oSqrtA
  let R2 := R * R
  let It0 := F * Ig0
  let It1 := F * R * (Ig1 - u0 * Ig0)
  let It2 := F * R2 * (Ig2 - u0 * Ig1 * 2 + u02 * Ig0)
  let It3 := F * R2 * R * (Ig3 - u0 * Ig2 * 3 + u02 * Ig1 * 3 - u0 * u02 * Ig0)
  let P2 := NormG * (It0 - 0.5 * It2)
  let P4 := NormG * (It1 - R1o6 * It3)
  let u0py := i1o2SqrtA * (B - ymixing * Gamma + selbias)
  let u0my := i1o2SqrtA * (B + ymixing * Gamma + selbias)
  let Fpy := i1oSqrtA * Real.exp (-C + u0py * u0py)
  let Fmy := i1oSqrtA * Real.exp (-C + u0my * u0my)
  let Ipy := Fpy * SQRTPIo2 * erfcFun u0py
  let Imy := Fmy * SQRTPIo2 * erfcFun u0my
  let P1 := NormG * 0.5 * (Ipy + Imy)
  let P3 := NormG * 0.5 * (Ipy - Imy)
  (P1, P2, P3, P4)

/-- The thirteen parameters of `ThreeGaussResolution`, ThreeGaussResolution.cu:73-88. -/
structure ThreeGaussPars where
  coreFraction : ℝ
  tailFraction : ℝ
  coreBias : ℝ
  coreScale : ℝ
  tailBias : ℝ
  tailScale : ℝ
  outlBias : ℝ
  outlScale : ℝ
  selbias : ℝ
  commonBias : ℝ
  commonWidth : ℝ
  commonBias2 : ℝ
  commonWidth2 : ℝ

/-- `device_threegauss_resolution`, ThreeGaussResolution.cu:63-127. -/
noncomputable def threeGaussResolution (p : ThreeGaussPars)
    (coshterm costerm sinhterm sinterm tau dtime xmixing ymixing sigma : ℝ) : ℝ :=
  let outlFraction := 1 - p.coreFraction - p.tailFraction
  let coreBias := p.coreBias + p.commonBias
  let tailBias := p.tailBias + p.commonBias2
  let outlBias := p.outlBias + p.commonBias2
  let coreScale := p.coreScale * p.commonWidth
  let tailScale := p.tailScale * p.commonWidth2
  let outlScale := p.outlScale * p.commonWidth2
  let cp := gaussRes tau (dtime - coreBias * sigma) xmixing ymixing (coreScale * sigma) p.selbias
  let tp := gaussRes tau (dtime - tailBias * sigma) xmixing ymixing (tailScale * sigma) p.selbias
  let op := gaussRes tau (dtime - outlBias * sigma) xmixing ymixing (outlScale * sigma) p.selbias
  let P1 := p.coreFraction * cp.1 + p.tailFraction * tp.1 + outlFraction * op.1
  let P2 := p.coreFraction * cp.2.1 + p.tailFraction * tp.2.1 + outlFraction * op.2.1
  let P3 := p.coreFraction * cp.2.2.1 + p.tailFraction * tp.2.2.1 + outlFraction * op.2.2.1
  let P4 := p.coreFraction * cp.2.2.2 + p.tailFraction * tp.2.2.2 + outlFraction * op.2.2.2
  let ret := 0 + coshterm * P1
  let ret := ret + costerm * P2
  let ret := ret - 2 * sinhterm * P3
  ret - 2 * sinterm * P4

/-- `ThreeGaussResolution::normalization`, ThreeGaussResolution.cu:155-183. -/
noncomputable def threeGaussNormalization (selBias di1 di2 di3 di4 tau xmixing ymixing : ℝ) : ℝ :=
  let timeIntegralOne := (selBias + 1 / tau)
    / (selBias * selBias + 2 * selBias / tau + (1 - ymixing * ymixing) / (tau * tau))
  let timeIntegralTwo := (selBias + 1 / tau)
    / (selBias * selBias + 2 * selBias / tau + (1 + xmixing * xmixing) / (tau * tau))
  let timeIntegralThr := (ymixing / tau)
    / (selBias * selBias + 2 * selBias / tau + (1 - ymixing * ymixing) / (tau * tau))
  let timeIntegralFou := (xmixing / tau)
    / (selBias * selBias + 2 * selBias / tau + (1 + xmixing * xmixing) / (tau * tau))
  let ret := timeIntegralOne * (di1 + di2)
  let ret := ret + timeIntegralTwo * (di1 - di2)
  let ret := ret - 2 * timeIntegralThr * di3
  ret - 2 * timeIntegralFou * di4

end GooFit
