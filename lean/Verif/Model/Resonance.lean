import Mathlib.Analysis.SpecialFunctions.Log.Basic
import Mathlib.Analysis.SpecialFunctions.Trigonometric.Basic
import Mathlib.Analysis.SpecialFunctions.Exp
import Mathlib.Data.Complex.Basic

/-!
# Resonances of three-body decays

Models `src/PDFs/physics/resonances/Resonance.cu` (all functions),
`RBW.cu`, `GS.cu`, `LASS.cu`, `RhoOmegaMix.cu`, `FLATTE.cu`, `Gauss.cu` and
`NonRes.cu` in the same directory, over ℝ and ℂ.

Simplifications.
* Numbers are exact; `pow(x, 2.0 * spin + 1)` is the power with the natural
  exponent `2 * spin + 1` (the base is a quotient of momenta, not negative).
* `sqrt` of a negative number (NaN in C++) is 0 here, and a division by zero is 0;
  the theorems assume positive squared masses where that would matter.
* The parameters, constants and `c_...` device globals are arguments; how they
  get to the device is modelled in `Model/Amp3Body.lean` and `Model/Tree.lean`.
* `PAIR_12 = 0`, `PAIR_13 = 1`, `PAIR_23 = 2` (DalitzPlotHelpers.h:81).
-/

set_option autoImplicit false

namespace GooFit

/-- The device globals `c_motherMass`, `c_daug1Mass`, `c_daug2Mass`,
`c_daug3Mass`, `c_meson_radius`, `c_mother_meson_radius` (Globals.cu:29-34). -/
structure DalitzCtx where
  mother : ℝ
  d1 : ℝ
  d2 : ℝ
  d3 : ℝ
  radius : ℝ
  motherRadius : ℝ

/-- `twoBodyCMmom`, Resonance.cu:48-60. -/
noncomputable def twoBodyCMmom (rMassSq d1m d2m : ℝ) : ℝ :=
  let kin1 := 1 - (d1m + d2m) * (d1m + d2m) / rMassSq
  let kin1 := if kin1 ≥ 0 then √kin1 else 1
  let kin2 := 1 - (d1m - d2m) * (d1m - d2m) / rMassSq
  let kin2 := if kin2 ≥ 0 then √kin2 else 1
  0.5 * √rMassSq * kin1 * kin2

/-- `twoBodyCMMothermom`, Resonance.cu:62-75. -/
noncomputable def twoBodyCMMothermom (rMassSq dm d3m : ℝ) : ℝ :=
  let kin1 := 1 - (dm + d3m) * (dm + d3m) / rMassSq
  let kin1 := if kin1 ≥ 0 then √kin1 else 1
  let kin2 := 1 - (dm - d3m) * (dm - d3m) / rMassSq
  let kin2 := if kin2 ≥ 0 then √kin2 else 1
  0.5 * rMassSq * kin1 * kin2 / dm

/-- `dampingFactorSquare`, Resonance.cu:77-86. -/
noncomputable def dampingFactorSquare (cmmom : ℝ) (spin : Nat) (mRadius : ℝ) : ℝ :=
  let square := mRadius * mRadius * cmmom * cmmom
  let dfsq := 2 * square
  let dfsqres := 13 * square / (square - 3) ^ 2 + 9 * square * square
  if spin = 2 then dfsqres else dfsq

/-- `dampingFactorSquareNorm`, Resonance.cu:88-97. -/
noncomputable def dampingFactorSquareNorm (cmmom : ℝ) (spin : Nat) (mRadius : ℝ) : ℝ :=
  let square := mRadius * mRadius * cmmom * cmmom
  let dfsq := 1 + square
  let dfsqres := dfsq + 8 + 2 * square + square * square
  if spin = 2 then dfsqres else dfsq

/-- `spinFactor`, Resonance.cu:99-155. -/
noncomputable def spinFactorDalitz (spin : Nat) (motherMass daug1Mass daug2Mass daug3Mass m12 m13 m23 : ℝ)
    (cyc : Nat) : ℝ :=
  if 0 = spin then 1
  else
    let mA := if 0 = cyc then daug1Mass else if 1 = cyc then daug3Mass else daug2Mass
    let mB := if 0 = cyc then daug2Mass else if 1 = cyc then daug1Mass else daug3Mass
    let mC := if 0 = cyc then daug3Mass else if 1 = cyc then daug2Mass else daug1Mass
    let mAC := if 0 = cyc then m13 else if 1 = cyc then m23 else m12
    let mBC := if 0 = cyc then m23 else if 1 = cyc then m12 else m13
    let mAB := if 0 = cyc then m12 else if 1 = cyc then m13 else m23
    let massFactor := 1.0 / mAB
    let sFactor := -1 * ((mBC - mAC)
      + (massFactor * (motherMass * motherMass - mC * mC) * (mA * mA - mB * mB)))
    if 2 = spin then
      let extraterm := (mAB - (2 * motherMass * motherMass) - (2 * mC * mC))
        + massFactor * ((motherMass * motherMass - mC * mC) * (motherMass * motherMass - mC * mC))
      let extraterm := extraterm * ((mAB - (2 * mA * mA) - (2 * mB * mB))
        + massFactor * ((mA * mA - mB * mB) * (mA * mA - mB * mB)))
      sFactor * sFactor - extraterm / 3
    else sFactor

/-- `rMassSq`, RBW.cu:23 (also GS.cu:17, LASS.cu:24, RhoOmegaMix.cu:35, FLATTE.cu:42). -/
def pairMassSq (cyc : Nat) (m12 m13 m23 : ℝ) : ℝ :=
  if 0 = cyc then m12 else if 1 = cyc then m13 else m23

/-- `mass_daug1`, RBW.cu:24 (also GS.cu:27, LASS.cu:35). -/
def pairDaug1 (c : DalitzCtx) (cyc : Nat) : ℝ := if 2 = cyc then c.d2 else c.d1

/-- `mass_daug2`, RBW.cu:25 (also GS.cu:28). -/
def pairDaug2 (c : DalitzCtx) (cyc : Nat) : ℝ := if 0 = cyc then c.d2 else c.d3

/-- `bachelorMass`, RBW.cu:26-27 (also GS.cu:18-19, LASS.cu:25-26, RhoOmegaMix.cu:39-40). -/
def pairBachelor (c : DalitzCtx) (cyc : Nat) : ℝ :=
  if 0 = cyc then c.d3 else if 1 = cyc then c.d2 else c.d1

/-- `frFactor`, RBW.cu:29, 49-64 (also GS.cu:20, 45-58; LASS.cu:27, 53-72 after
the overwritten assignments; RhoOmegaMix.cu:42, 63-78): `nominal`, `measure` are
the momenta in the resonance frame. -/
noncomputable def frFactorOf (c : DalitzCtx) (spin : Nat) (norm : Bool) (nominal measure : ℝ) : ℝ :=
  if 0 ≠ spin then
    if norm then
      dampingFactorSquareNorm nominal spin c.radius / dampingFactorSquareNorm measure spin c.radius
    else dampingFactorSquare measure spin c.radius
  else 1

/-- `frFactorMother`, RBW.cu:30, 38-64 (also GS.cu:21, 33-58; LASS.cu:28, 41-72;
RhoOmegaMix.cu:43, 51-78). -/
noncomputable def frFactorMotherOf (c : DalitzCtx) (spin : Nat) (norm : Bool) (rMassSq resmass2 bachelor : ℝ) : ℝ :=
  if 0 ≠ spin then
    if norm then
      dampingFactorSquareNorm (twoBodyCMMothermom resmass2 c.mother bachelor) spin c.motherRadius
        / dampingFactorSquareNorm (twoBodyCMMothermom rMassSq c.mother bachelor) spin c.motherRadius
    else
      dampingFactorSquare (twoBodyCMmom (c.mother * c.mother) (√rMassSq) bachelor) spin c.motherRadius
  else 1

/-- One pass of the loop of `plainBW<I>`, RBW.cu:23-78. -/
noncomputable def rbwTerm (c : DalitzCtx) (spin cyc : Nat) (norm : Bool) (resmass reswidth m12 m13 m23 : ℝ) : ℂ :=
  let resmass2 := resmass * resmass
  let rMassSq := pairMassSq cyc m12 m13 m23
  let measure := twoBodyCMmom rMassSq (pairDaug1 c cyc) (pairDaug2 c cyc)
  let nominal := twoBodyCMmom resmass2 (pairDaug1 c cyc) (pairDaug2 c cyc)
  let frFactor := frFactorOf c spin norm nominal measure
  let frFactorMother := frFactorMotherOf c spin norm rMassSq resmass2 (pairBachelor c cyc)
  let A := resmass2 - rMassSq
  let B := resmass2 * reswidth * (measure / nominal) ^ (2 * spin + 1) * frFactor / √rMassSq
  let C := 1.0 / (A * A + B * B)
  (⟨A * C, B * C⟩ : ℂ) * (√frFactor : ℝ) * (√frFactorMother : ℝ)
    * (spinFactorDalitz spin c.mother c.d1 c.d2 c.d3 m12 m13 m23 cyc : ℝ)

/-- The loop `for(i = 0; i < I; i++)` of `plainBW<I>`, RBW.cu:22-83: the cyclic
index moves on after each pass when `I > 1`. -/
noncomputable def plainBWGo (c : DalitzCtx) (spin : Nat) (norm : Bool) (resmass reswidth m12 m13 m23 : ℝ) (I : Nat) :
    Nat → Nat → ℂ → ℂ
  | 0, _, result => result
  | k + 1, cyc, result =>
    plainBWGo c spin norm resmass reswidth m12 m13 m23 I k (if I > 1 then (cyc + 1) % 3 else cyc)
      (result + rbwTerm c spin cyc norm resmass reswidth m12 m13 m23)

/-- `Resonances::RBW`: `plainBW<1>`, or `plainBW<2>` with `sym`, RBW.cu:9-86, 111-114. -/
noncomputable def resRBW (c : DalitzCtx) (spin cyc : Nat) (norm sym : Bool) (resmass reswidth m12 m13 m23 : ℝ) : ℂ :=
  let I := if sym then 2 else 1
  plainBWGo c spin norm resmass reswidth m12 m13 m23 I I cyc 0

/-- `_pi`, Resonance.cu:7, 15, 38. -/
noncomputable def gsPi : ℝ := 3.14159265359

/-- `hFun`, Resonance.cu:13-21. -/
noncomputable def hFun (s daug2Mass daug3Mass : ℝ) : ℝ :=
  let sm := daug2Mass + daug3Mass
  let sqrt_s := √s
  let k_s := twoBodyCMmom s daug2Mass daug3Mass
  (2 / gsPi) * (k_s / sqrt_s) * Real.log ((sqrt_s + 2 * k_s) / sm)

/-- `dh_dsFun`, Resonance.cu:5-11. -/
noncomputable def dhdsFun (s daug2Mass daug3Mass : ℝ) : ℝ :=
  let k_s := twoBodyCMmom s daug2Mass daug3Mass
  hFun s daug2Mass daug3Mass * (1.0 / (8.0 * (k_s * k_s)) - 1.0 / (2.0 * s)) + 1.0 / (2.0 * gsPi * s)

/-- `fsFun`, Resonance.cu:23-34. -/
noncomputable def fsFun (s m2 gam daug2Mass daug3Mass : ℝ) : ℝ :=
  let k_s := twoBodyCMmom s daug2Mass daug3Mass
  let k_Am2 := twoBodyCMmom m2 daug2Mass daug3Mass
  let f := gam * m2 / (k_Am2 * k_Am2 * k_Am2)
  f * (k_s * k_s * (hFun s daug2Mass daug3Mass - hFun m2 daug2Mass daug3Mass)
    + (m2 - s) * (k_Am2 * k_Am2) * dhdsFun m2 daug2Mass daug3Mass)

/-- `dFun`, Resonance.cu:36-46. -/
noncomputable def dFun (s daug2Mass daug3Mass : ℝ) : ℝ :=
  let sm := daug2Mass + daug3Mass
  let sm24 := sm * sm / 4.0
  let m := √s
  let k_m2 := twoBodyCMmom s daug2Mass daug3Mass
  3.0 / gsPi * sm24 / (k_m2 * k_m2) * Real.log ((m + 2 * k_m2) / sm) + m / (2 * gsPi * k_m2)
    - sm24 * m / (gsPi * (k_m2 * k_m2 * k_m2))

/-- `gouSak`, GS.cu:9-75, registered whatever the flag `sym` of the constructor
(GS.cu:81-99). -/
noncomputable def resGS (c : DalitzCtx) (spin cyc : Nat) (norm _sym : Bool) (resmass reswidth m12 m13 m23 : ℝ) : ℂ :=
  let rMassSq := pairMassSq cyc m12 m13 m23
  let resmass := resmass * resmass
  let measure := twoBodyCMmom rMassSq (pairDaug1 c cyc) (pairDaug2 c cyc)
  let nominal := twoBodyCMmom resmass (pairDaug1 c cyc) (pairDaug2 c cyc)
  let frFactor := frFactorOf c spin norm nominal measure
  let frFactorD := frFactorMotherOf c spin norm rMassSq resmass (pairBachelor c cyc)
  let D := 1.0 + dFun resmass c.d2 c.d3 * reswidth / √resmass
  let E := resmass - rMassSq + fsFun rMassSq resmass reswidth c.d2 c.d3
  let F := √resmass * reswidth * (measure / nominal) ^ (2 * spin + 1) * frFactor
  let D := D / (E * E + F * F)
  (⟨D * E, D * F⟩ : ℂ) * (√frFactor : ℝ) * (√frFactorD : ℝ)
    * (spinFactorDalitz spin c.mother c.d1 c.d2 c.d3 m12 m13 m23 cyc : ℝ)

/-- The second daughter mass of LASS, LASS.cu:36, 39 (not the one of RBW). -/
def lassDaug2 (c : DalitzCtx) (cyc : Nat) : ℝ := if 2 = cyc then c.d3 else c.d2

/-- The eight parameters of `Resonances::LASS`, LASS.cu:14-22. -/
structure LassPars where
  mass : ℝ
  width : ℝ
  a : ℝ
  r : ℝ
  R : ℝ
  phiR : ℝ
  B : ℝ
  phiB : ℝ

/-- `cot_deltaB` and `qcot_deltaB` (LASS.cu:97-98) at momentum `q`. -/
noncomputable def lassCot (p : LassPars) (q : ℝ) : ℝ × ℝ :=
  (1.0 / (p.a * q) + 0.5 * p.r * q, 1.0 / p.a + 0.5 * p.r * q * q)

/-- `resT` before the form factors, LASS.cu:84-110: `q` is `measureDaughterMoms`,
`q0` `nominalDaughterMoms`, `fr` the form factor, `s` the squared mass of the pair. -/
noncomputable def lassT (p : LassPars) (spin : Nat) (s q q0 fr : ℝ) : ℂ :=
  let resmass := p.mass * p.mass
  let g := p.width * (q / q0) ^ (2 * spin + 1) * fr / √s
  let cot := lassCot p q
  let expi2deltaB := (⟨cot.2, q⟩ : ℂ) / ⟨cot.2, -q⟩
  let resT := (⟨Real.cos (p.phiR + 2 * p.phiB), Real.sin (p.phiR + 2 * p.phiB)⟩ : ℂ) * (p.R : ℝ)
  let prop := (1 : ℂ) / ⟨resmass - s, √resmass * g⟩
  let resT := resT * (prop * ((resmass * p.width / q0 : ℝ) : ℂ) * expi2deltaB)
  resT + (⟨Real.cos p.phiB, Real.sin p.phiB⟩ : ℂ) * (p.B : ℝ)
    * ((Real.cos p.phiB + cot.1 * Real.sin p.phiB : ℝ) : ℂ) * (√s : ℝ) / ⟨cot.2, -q⟩

/-- `lass`, LASS.cu:9-119. -/
noncomputable def resLASS (c : DalitzCtx) (spin cyc : Nat) (norm : Bool) (p : LassPars) (m12 m13 m23 : ℝ) : ℂ :=
  let rMassSq := pairMassSq cyc m12 m13 m23
  let resmass := p.mass * p.mass
  let measure := twoBodyCMmom rMassSq (pairDaug1 c cyc) (lassDaug2 c cyc)
  let nominal := twoBodyCMmom resmass (pairDaug1 c cyc) (lassDaug2 c cyc)
  let frFactor := frFactorOf c spin norm nominal measure
  let frFactorD := frFactorMotherOf c spin norm rMassSq resmass (pairBachelor c cyc)
  lassT p spin rMassSq measure nominal frFactor * (√frFactor : ℝ) * (√frFactorD : ℝ)
    * (spinFactorDalitz spin c.mother c.d1 c.d2 c.d3 m12 m13 m23 cyc : ℝ)

/-- The parameters of `Resonances::RhoOmegaMix`, RhoOmegaMix.cu:15-26. -/
structure RhoOmegaPars where
  omegaMass : ℝ
  omegaWidth : ℝ
  rhoMass : ℝ
  rhoWidth : ℝ
  re : ℝ
  im : ℝ
  delta : ℝ

/-- `rhoomgamix<1>`, RhoOmegaMix.cu:9-139: the omega is `rbwTerm` (lines 36-91),
the rho `resGS` (93-130).  Both branches of the constructor register this
function (RhoOmegaMix.cu:173-176). -/
noncomputable def resRhoOmega (c : DalitzCtx) (spin cyc : Nat) (norm _sym : Bool) (p : RhoOmegaPars)
    (m12 m13 m23 : ℝ) : ℂ :=
  let Bterm := (⟨p.re, p.im⟩ : ℂ) * ((p.delta * (p.rhoMass + p.omegaMass) : ℝ) : ℂ)
  let omega := rbwTerm c spin cyc norm p.omegaMass p.omegaWidth m12 m13 m23
  let rho := resGS c spin cyc norm false p.rhoMass p.rhoWidth m12 m13 m23
  rho * (Bterm * omega + 1)

/-- One channel of `flatte`: `(real, imaginary)` contributions of weight `w` and
squared threshold `t`, FLATTE.cu:44-59. -/
noncomputable def flatteRho (w t s : ℝ) : ℝ × ℝ :=
  if s ≥ t then (w * √(1 - t / s), 0) else (0, w * √(-1 + t / s))

/-- `flatte` for one pair, FLATTE.cu:39-63. -/
noncomputable def flatteTerm (resmass g1 g2 s : ℝ) : ℂ :=
  let pip := flatteRho (2 / 3) (4 * 0.13957018 * 0.13957018) s
  let pi0 := flatteRho (1 / 3) (4 * 0.1349766 * 0.1349766) s
  let kp := flatteRho 0.5 (4 * 0.493677 * 0.493677) s
  let k0 := flatteRho 0.5 (4 * 0.497614 * 0.497614) s
  let A := (resmass * resmass - s) + resmass * ((pip.2 + pi0.2) * g1 + (kp.2 + k0.2) * g2)
  let B := resmass * ((pip.1 + pi0.1) * g1 + (kp.1 + k0.1) * g2)
  let C := 1.0 / (A * A + B * B)
  ⟨A * C, B * C⟩

/-- `flatte`, FLATTE.cu:19-74: with `symmDP` a second pass with `m12` and `m13`
exchanged. -/
noncomputable def resFlatte (cyc : Nat) (symmDP : Bool) (resmass g1 rg2og1 m12 m13 m23 : ℝ) : ℂ :=
  let r := 0 + flatteTerm resmass g1 (rg2og1 * g1) (pairMassSq cyc m12 m13 m23)
  if symmDP then r + flatteTerm resmass g1 (rg2og1 * g1) (pairMassSq cyc m13 m12 m23) else r

/-- `gaussian`, Gauss.cu:9-28. -/
noncomputable def resGauss (cyc : Nat) (resmass reswidth m12 m13 m23 : ℝ) : ℂ :=
  let massToUse := √(pairMassSq cyc m12 m13 m23)
  let massToUse := (massToUse - resmass) / reswidth
  ⟨Real.exp (-0.5 * (massToUse * massToUse)) / reswidth, 0⟩

/-- `nonres`, NonRes.cu:8-11. -/
def resNonRes : ℂ := 1

end GooFit
