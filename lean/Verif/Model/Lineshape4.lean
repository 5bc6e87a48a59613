import Mathlib.Analysis.SpecialFunctions.Trigonometric.Arctan
import Mathlib.Analysis.SpecialFunctions.Pow.Complex
import Mathlib.Data.Real.Sign
import Mathlib.Analysis.Complex.Trigonometric

/-!
# The line shapes of four-body amplitudes

`src/PDFs/physics/lineshapes/`: `Common.cu` (all), `BW.cu:14-148`, `Flatte.cu:10-50`, `FOCUS.cu:13-74`, `Bugg.cu:11-128`,
`GLASS.cu:13-62`, `NonRes.cu:10-24`, `One.cu:8-11`.  Each function is called with the mass `Mpair` of a pair (or triple) and the
masses `m1`, `m2` of what it decays to.

Simplifications: over the real numbers, `M_PI` is `π`, complex numbers are those of Mathlib, the square root of a complex
number is the principal one; the parameters and constants that the constructors register are passed as arguments, those that
the constructors ignore are arguments too, unused.
-/

set_option autoImplicit false

namespace GooFit

/-- `BL_PRIME`, Common.cu:8-21. -/
noncomputable def ffBLPrime (z2 z02 : ℝ) (L : Nat) : ℝ :=
  match L with
  | 0 => 1
  | 1 => (1 + z02) / (1 + z2)
  | 2 => (z02 * z02 + 3 * z02 + 9) / (z2 * z2 + 3 * z2 + 9)
  | _ => 0

/-- `BL`, Common.cu:23-36. -/
noncomputable def ffBL (z2 : ℝ) (L : Nat) : ℝ :=
  match L with
  | 0 => 1
  | 1 => 2 * z2 / (1 + z2)
  | 2 => (13 * z2 * z2) / (z2 * z2 + 3 * z2 + 9)
  | _ => 0

/-- `BL2`, Common.cu:38-51. -/
noncomputable def ffBL2 (z2 : ℝ) (L : Nat) : ℝ :=
  match L with
  | 0 => 1
  | 1 => 1 / (1 + z2)
  | 2 => 1 / (z2 * z2 + 3 * z2 + 9)
  | _ => 0

/-- `enum class FF`, `include/goofit/PDFs/physics/lineshapes/Lineshape.h:18`. -/
inductive FormFactor where
  | One | BL | BL_Prime | BL2
deriving DecidableEq

/-- `pABSq` (with `Mpair²`) and, before `fabs` or the cut at 0, `prSq` (with the nominal mass), BW.cu:27-34, 83-90, 126-131;
Flatte.cu:31-35, GLASS.cu:29-34, NonRes.cu:16-19. -/
noncomputable def breakupSq (s m1 m2 : ℝ) : ℝ :=
  (s - (m1 + m2) * (m1 + m2)) * (s - (m1 - m2) * (m1 - m2)) / (4 * s)

/-- `frFactor`, BW.cu:47-52 and 93-98. -/
noncomputable def lsFormFactor (FF : FormFactor) (L : Nat) (z prz : ℝ) : ℝ :=
  if L ≠ 0 ∧ FF ≠ .One then
    let f := if FF = .BL then ffBL z L else ffBLPrime z prz L
    if FF = .BL2 then ffBL2 z L else f
  else 1

/-- The factor `k` of `BW`, BW.cu:56-60. -/
noncomputable def rbwK (mass width : ℝ) : ℝ :=
  let gamma := mass * √(mass * mass + width * width)
  (2 * √2 / Real.pi) * mass * width * gamma / √(mass * mass + gamma)

/-- The factor `k` of `SBW`, BW.cu:102-103. -/
noncomputable def sbwK (mass width : ℝ) : ℝ :=
  let gamma := √(mass * mass * (mass * mass + width * width))
  mass * width * gamma / √(mass * mass + gamma)

/-- `GofM`, BW.cu:36-46, 54 and GLASS.cu:36-47. -/
noncomputable def lsGofM (Mpair m1 m2 mass width : ℝ) (L : Nat) (radius : ℝ) : ℝ :=
  let pABSq := breakupSq (Mpair * Mpair) m1 m2
  let prSqForGofM := |breakupSq (mass * mass) m1 m2|
  let pratio := √(pABSq / prSqForGofM)
  let pratio_to_2Jplus1 := (List.range (2 * L + 1)).foldl (fun acc _ => acc * pratio) 1
  let mratio := mass / Mpair
  let r2 := radius * radius
  let thisFR := ffBLPrime (pABSq * r2) (prSqForGofM * r2) L
  width * pratio_to_2Jplus1 * mratio * thisFR

/-- `ret` of BW.cu:61-64 and 105-108. -/
noncomputable def lsPropagator (k frFactor mass mumsRecoMass2 GofM : ℝ) : ℂ :=
  let BW : ℂ := ⟨mass * mass - mumsRecoMass2, mass * GofM⟩
  let den := (mass * mass - mumsRecoMass2) * (mass * mass - mumsRecoMass2) + mass * GofM * mass * GofM
  ((√(k * frFactor) / den : ℝ) : ℂ) * BW

/-- `BW` (`Lineshapes::RBW`), BW.cu:14-69. -/
noncomputable def lsRBW (Mpair m1 m2 mass width : ℝ) (L : Nat) (FF : FormFactor) (radius : ℝ) : ℂ :=
  let pABSq := breakupSq (Mpair * Mpair) m1 m2
  let prSq := breakupSq (mass * mass) m1 m2
  let prSq2 := if prSq < 0 then 0 else prSq
  let r2 := radius * radius
  lsPropagator (rbwK mass width) (lsFormFactor FF L (pABSq * r2) (prSq2 * r2)) mass (Mpair * Mpair)
    (lsGofM Mpair m1 m2 mass width L radius)

/-- `SBW`, BW.cu:72-116. -/
noncomputable def lsSBW (Mpair m1 m2 mass width : ℝ) (L : Nat) (FF : FormFactor) (radius : ℝ) : ℂ :=
  let pABSq := breakupSq (Mpair * Mpair) m1 m2
  let prSq := breakupSq (mass * mass) m1 m2
  let prSq2 := if prSq < 0 then 0 else prSq
  let r2 := radius * radius
  lsPropagator (sbwK mass width) (lsFormFactor FF L (pABSq * r2) (prSq2 * r2)) mass (Mpair * Mpair) width

/-- `lass_MINT` (`Lineshapes::LASS`), BW.cu:118-148. -/
noncomputable def lsLASS (Mpair m1 m2 mass width : ℝ) (L : Nat) (FF : FormFactor) (radius : ℝ) : ℂ :=
  let a : ℝ := 2.07
  let r : ℝ := 3.32
  let pABSq := breakupSq (Mpair * Mpair) m1 m2
  let prSq := |breakupSq (mass * mass) m1 m2|
  let y := 2 * a * √pABSq
  let x := 2 + a * r * pABSq
  let cot := x / y
  let phaseshift : ℂ := ⟨(cot * cot - 1) / (1 + cot * cot), 2 * cot / (1 + cot * cot)⟩
  let den : ℂ := ⟨√pABSq * cot, -1 * √pABSq⟩
  let SF := Mpair * √prSq / (mass * mass * width)
  let BG := (SF : ℂ) / den
  BG + phaseshift * lsRBW Mpair m1 m2 mass width L FF radius

/-- `atan(n / d)` in IEEE arithmetic, where a division by zero gives an infinity (library function). -/
noncomputable def atanQuot (n d : ℝ) : ℝ := if d = 0 then Real.sign n * (Real.pi / 2) else Real.arctan (n / d)

/-- `glass_MINT3` (`Lineshapes::GLASS`), GLASS.cu:13-62; the form factor of the constructor is not used. -/
noncomputable def lsGLASS (Mpair m1 m2 mass width : ℝ) (L : Nat) (radius a r phiF phiR F : ℝ) : ℂ :=
  let rMass2 := Mpair * Mpair
  let R : ℝ := 1
  let pABSq := breakupSq rMass2 m1 m2
  let GofM := lsGofM Mpair m1 m2 mass width L radius
  let y := 2 * a * √pABSq
  let x := 2 + a * r * pABSq
  let scattphase := phiF + atanQuot y x
  let resphase := phiR + atanQuot (mass * GofM) (mass * mass - rMass2)
  let rho := 1 / √(pABSq / rMass2)
  (((F * Real.sin scattphase : ℝ) : ℂ) * ⟨Real.cos scattphase, Real.sin scattphase⟩
    + ((R * Real.sin resphase : ℝ) : ℂ) * ⟨Real.cos (resphase + 2 * scattphase), Real.sin (resphase + 2 * scattphase)⟩)
    * (rho : ℂ)

/-- `aSqrtTerm`, Flatte.cu:10-14. -/
noncomputable def aSqrtTerm (m0 m : ℝ) : ℂ :=
  let a2 := 1 - (2 * m0 / m) * (2 * m0 / m)
  if a2 > 0 then ⟨√a2, 0⟩ else ⟨0, √(-a2)⟩

/-- `Flatte_MINT` (`Lineshapes::Flatte`), Flatte.cu:16-50.  The constructor (54-66) takes a width and a form factor, which are
not used. -/
noncomputable def lsFlatte (Mpair m1 m2 mass _width : ℝ) (L : Nat) (_FF : FormFactor) (radius : ℝ) : ℂ :=
  let rMass2 := Mpair * Mpair
  let gPi : ℝ := 0.165
  let gK_by_gPi : ℝ := 4.21
  let gK := gPi * gK_by_gPi
  let mPi0 : ℝ := 0.1349766
  let mK0 : ℝ := 0.497648
  let mPiPlus : ℝ := 0.139570
  let mKPlus : ℝ := 0.493677
  let pABSq := breakupSq rMass2 m1 m2
  let Gpipi := (1 / 3 : ℂ) * aSqrtTerm mPi0 Mpair + (2 / 3 : ℂ) * aSqrtTerm mPiPlus Mpair
  let GKK := (1 / 2 : ℂ) * aSqrtTerm mK0 Mpair + (1 / 2 : ℂ) * aSqrtTerm mKPlus Mpair
  let FlatteWidth := (gPi : ℂ) * Gpipi + (gK : ℂ) * GKK
  let frFactor := ffBL2 (pABSq * radius * radius) L
  (√frFactor : ℂ) / ((⟨mass * mass - rMass2, 0⟩ : ℂ) - ⟨0, 1⟩ * (mass : ℂ) * FlatteWidth)

/-- `nonres_DP` (`Lineshapes::NonRes`), NonRes.cu:10-24. -/
noncomputable def lsNonRes (Mpair m1 m2 : ℝ) (L : Nat) (radius : ℝ) : ℂ :=
  let pABSq := breakupSq (Mpair * Mpair) m1 m2
  let formfactor := √(ffBL2 (pABSq * radius * radius) L)
  (⟨1, 0⟩ : ℂ) * (formfactor : ℂ)

/-- `LS_ONE`, One.cu:8-11. -/
noncomputable def lsOne (_Mpair _m1 _m2 : ℝ) : ℂ := ⟨1, 0⟩

/-- `bugg_rho2`, Bugg.cu:11-16. -/
noncomputable def buggRho2 (s m : ℝ) : ℂ :=
  let rho_squared := 1 - 4 * m * m / s
  let returnVal : ℂ := if rho_squared ≥ 0 then ⟨1, 0⟩ else ⟨0, 1⟩
  let r := if rho_squared ≥ 0 then √rho_squared else √(-rho_squared)
  (r : ℂ) * returnVal

/-- `bugg_j1`, Bugg.cu:18-23. -/
noncomputable def buggJ1 (s m : ℝ) : ℝ :=
  let rho_pipi := (buggRho2 s m).re
  (2 + (if rho_pipi > 0 then rho_pipi * Real.log ((1 - rho_pipi) / (1 + rho_pipi)) else 0)) / Real.pi

/-- `bugg_Gamma_4pi`, Bugg.cu:25-35. -/
noncomputable def buggGamma4pi (s mpi g_4pi M lambda_4pi s0_4pi : ℝ) : ℝ :=
  if s < 16 * mpi * mpi then 0
  else g_4pi * (1 / (1 + Real.exp (lambda_4pi * (s0_4pi - s)))) / (1 / (1 + Real.exp (lambda_4pi * (s0_4pi - M * M))))

/-- The masses of Common.h:5-8. -/
noncomputable def lsMPiPlus : ℝ := 0.139570
/-- Common.h:6. -/
noncomputable def lsMKPlus : ℝ := 0.493677
/-- Common.h:8. -/
noncomputable def lsMEta : ℝ := 0.547862
/-- Common.h:9. -/
noncomputable def lsMEtap : ℝ := 0.96778

/-- `bugg_MINT` (`Lineshapes::Bugg`), Bugg.cu:39-85; the constructor (133-146) uses none of its other arguments. -/
noncomputable def lsBugg (Mpair _mass _width : ℝ) : ℂ :=
  let s := Mpair * Mpair
  let M : ℝ := 0.953
  let b1 : ℝ := 1.302
  let b2 : ℝ := 0.340
  let A : ℝ := 2.426
  let g_4pi : ℝ := 0.011
  let g_2K : ℝ := 0.6
  let g_2eta : ℝ := 0.2
  let alpha : ℝ := 1.3
  let sA : ℝ := 0.41
  let s0_4pi : ℝ := 7.082 / 2.845
  let lambda_4pi : ℝ := 2.845
  let g1sq := (b1 + b2 * s) * Real.exp (-(s - M * M) / A)
  let z := buggJ1 s lsMPiPlus - buggJ1 (M * M) lsMPiPlus
  let gamma_2pi : ℂ := ⟨g1sq * (s - sA * lsMPiPlus * lsMPiPlus) / (M * M - sA * lsMPiPlus * lsMPiPlus)
    * (buggRho2 s lsMPiPlus).re, 0⟩
  let gamma_2K : ℂ := ((g_2K * g1sq * s / (M * M)
    * Real.exp (-1 * alpha * √((s - 4 * lsMKPlus * lsMKPlus) * (s - 4 * lsMKPlus * lsMKPlus))) : ℝ) : ℂ) * buggRho2 s lsMKPlus
  let gamma_2eta : ℂ := ((g_2eta * g1sq * s / (M * M)
    * Real.exp (-1 * alpha * √((s - 4 * lsMEta * lsMEta) * (s - 4 * lsMEta * lsMEta))) : ℝ) : ℂ) * buggRho2 s lsMEta
  let gamma_4pi : ℂ := ⟨buggGamma4pi s lsMPiPlus g_4pi M lambda_4pi s0_4pi, 0⟩
  let Gamma_tot := gamma_2pi + gamma_2K + gamma_2eta + gamma_4pi
  let den : ℂ := (⟨M * M - s - M * g1sq * (s - sA * lsMPiPlus * lsMPiPlus) / (M * M - sA * lsMPiPlus * lsMPiPlus) * z, 0⟩ : ℂ)
    - ⟨0, 1⟩ * (M : ℂ) * Gamma_tot
  1 / den * (√1000 : ℂ)

/-- `bugg_MINT3` (`Lineshapes::Bugg3`), Bugg.cu:87-128. -/
noncomputable def lsBugg3 (Mpair _mass _width : ℝ) : ℂ :=
  let s := Mpair * Mpair
  let M : ℝ := 0.953
  let b1 : ℝ := 1.302
  let b2 : ℝ := 0.340
  let A : ℝ := 2.426
  let g_4pi : ℝ := 0.011
  let g_2K : ℝ := 0.6
  let g_2eta : ℝ := 0.2
  let alpha : ℝ := 1.3
  let s0_4pi : ℝ := 7.082 / 2.845
  let lambda_4pi : ℝ := 2.845
  let sA : ℝ := 0.41 * lsMPiPlus * lsMPiPlus
  let g1sq := M * (b1 + b2 * s) * Real.exp (-(s - M * M) / A)
  let z := buggJ1 s lsMPiPlus - buggJ1 (M * M) lsMPiPlus
  let adlerZero := (s - sA) / (M * M - sA)
  let mk4 := 4 * lsMKPlus * lsMKPlus
  let me4 := 4 * lsMEta * lsMEta
  let tmp1 := if s > mk4 then s - mk4 else mk4 - s
  let tmp2 := if s > me4 then s - me4 else me4 - s
  let gamma_2pi : ℂ := ⟨g1sq * adlerZero * (buggRho2 s lsMPiPlus).re, 0⟩
  let gamma_2K : ℂ := ((g_2K * g1sq * s / (M * M) * Real.exp (-1 * alpha * tmp1) : ℝ) : ℂ) * buggRho2 s lsMKPlus
  let gamma_2eta : ℂ := ((g_2eta * g1sq * s / (M * M) * Real.exp (-1 * alpha * tmp2) : ℝ) : ℂ) * buggRho2 s lsMEta
  let gamma_4pi : ℂ := ⟨buggGamma4pi s lsMPiPlus g_4pi M lambda_4pi s0_4pi, 0⟩
  let Gamma_tot := gamma_2pi + gamma_2K + gamma_2eta + gamma_4pi
  let den : ℂ := (⟨M * M - s - adlerZero * g1sq * z, 0⟩ : ℂ) - ⟨0, 1⟩ * Gamma_tot
  1 / den

/-- `Lineshapes::FOCUS::Mod`, FOCUS.h:10. -/
inductive FocusMod where
  | Kpi | KEta | I32
deriving DecidableEq

/-- `phsp_FOCUS`, FOCUS.cu:13-18. -/
noncomputable def phspFocus (s m0 m1 : ℝ) : ℂ :=
  let mp := m0 + m1
  let mm := m0 - m1
  (((1 - mp * mp / s) * (1 - mm * mm / s) : ℝ) : ℂ) ^ (1 / 2 : ℂ)

/-- `sNorm`, FOCUS.cu:25. -/
noncomputable def focusSNorm : ℝ := lsMKPlus * lsMKPlus + lsMPiPlus * lsMPiPlus

/-- `I12_adler * kMatrix(i, j)`, FOCUS.cu:26, 29, 34-49 for `(i, j) = (0, 0), (0, 1), (1, 1)`. -/
noncomputable def focusK (s : ℝ) : ℝ × ℝ × ℝ :=
  let s12 : ℝ := 0.23
  let I12_adler := (s - s12) / focusSNorm
  let pmass : ℝ := 1.7919
  let c0 : ℝ := 0.31072
  let c1 : ℝ := -0.02323
  let X := s / focusSNorm - 1
  (I12_adler * (c0 * c0 / (pmass - s) + 0.79299 - 0.15099 * X + 0.00811 * (X * X)),
   I12_adler * (c0 * c1 / (pmass - s) + 0.15040 - 0.038266 * X + 0.0022596 * (X * X)),
   I12_adler * (c1 * c1 / (pmass - s) + 0.17054 - 0.0219 * X + 0.00085655 * (X * X)))

/-- `K32`, FOCUS.cu:27, 30, 51. -/
noncomputable def focusK32 (s : ℝ) : ℝ :=
  let s32 : ℝ := 0.27
  let X := s / focusSNorm - 1
  (s - s32) / focusSNorm * (-0.22147 + 0.026637 * X - 0.00092057 * (X * X))

/-- `FOCUSFunction`, FOCUS.cu:20-74. -/
noncomputable def lsFOCUS (Mpair : ℝ) (mod : FocusMod) : ℂ :=
  let s := Mpair * Mpair
  let rho1 := phspFocus s lsMKPlus lsMPiPlus
  let rho2 := phspFocus s lsMKPlus lsMEtap
  let K11 := (focusK s).1
  let K12 := (focusK s).2.1
  let K22 := (focusK s).2.2
  let K32 := focusK32 s
  let detK := K11 * K22 - K12 * K12
  let del := 1 - rho1 * rho2 * (detK : ℂ) - Complex.I * (rho1 * (K11 : ℂ) + rho2 * (K22 : ℂ))
  let T32 := 1 / (1 - Complex.I * rho2 * (K32 : ℂ))
  match mod with
  | .Kpi => ((K11 : ℂ) - Complex.I * rho2 * (detK : ℂ)) / del
  | .KEta => (K12 : ℂ) / del
  | .I32 => T32

end GooFit
