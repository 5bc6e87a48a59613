import Verif.Model.Complex
import Verif.Model.Tree
/-!
# Coherent three-body amplitudes: normalisation and fit fractions (`src/PDFs/physics/Amp3Body.cu`)

Exact arithmetic in a field.  A resonance is a function of the two squared masses; the third is determined by them
(`src/PDFs/physics/detail/SpecialResonanceIntegrator.cu:29-30`).
-/
set_option autoImplicit false
namespace GooFit
section
variable {K : Type} [Field K]

/-- The array `dalitzNormRange` (`src/PDFs/physics/Amp3Body.cu:255-265`): limits and numbers of bins of `m12` and `m13`. -/
structure NormRange (K : Type) where
  lo12 : K
  hi12 : K
  nb12 : Nat
  lo13 : K
  hi13 : K
  nb13 : Nat

/-- `Observable::getBinSize` of the two observables (`include/goofit/Variable.h`). -/
def NormRange.binSize12 (r : NormRange K) : K := (r.hi12 - r.lo12) / (r.nb12 : K)
/-- See `binSize12` (`src/PDFs/physics/detail/SpecialResonanceIntegrator.cu:70-76`). -/
def NormRange.binSize13 (r : NormRange K) : K := (r.hi13 - r.lo13) / (r.nb13 : K)

/-- The point at which `SpecialResonanceIntegrator` evaluates bin `g`
(`src/PDFs/physics/detail/SpecialResonanceIntegrator.cu:59-76`).  The number of bins in `m13` is read from element 2
of the array (line 73), which is the number of bins in `m12`. -/
def NormRange.point (r : NormRange K) (g : Nat) : K × K :=
  ((r.hi12 - r.lo12) / (r.nb12 : K) * (((g % r.nb12 : Nat) : K) + 1 / 2) + r.lo12,
   (r.hi13 - r.lo13) / (r.nb12 : K) * (((g / r.nb12 : Nat) : K) + 1 / 2) + r.lo13)

/-- `device_DalitzPlot_calcIntegrals` (`src/PDFs/physics/detail/SpecialResonanceIntegrator.cu:7-45`). -/
def calcIntegrals (inside : K → K → Bool) (bi bj : K → K → Cx K) (m12 m13 : K) : Cx K :=
  if inside m12 m13 then bi m12 m13 * (bj m12 m13).conj else 0

/-- `SpecialResonanceIntegrator::operator()` (`src/PDFs/physics/detail/SpecialResonanceIntegrator.cu:52-121`). -/
def integratorAt (inside : K → K → Bool) (bi bj : K → K → Cx K) (eff : K → K → K) (r : NormRange K) (g : Nat) : Cx K :=
  calcIntegrals inside bi bj (r.point g).1 (r.point g).2 * Cx.ofReal (eff (r.point g).1 (r.point g).2)

/-- `*(integrals[i][j])` (`src/PDFs/physics/Amp3Body.cu:317-329`), the sum over `totalBins` (line 246) bins. -/
def integralOf (inside : K → K → Bool) (bi bj : K → K → Cx K) (eff : K → K → K) (r : NormRange K) : Cx K :=
  ((List.range (r.nb12 * r.nb13)).map (integratorAt inside bi bj eff r)).sum

/-- A resonance with its coefficient `amp_real + i amp_imag` (`src/PDFs/physics/Amp3Body.cu:91, 338, 342-343`). -/
abbrev AmpTerm (K : Type) := Cx K × (K → K → Cx K)

/-- `sumIntegral` (`src/PDFs/physics/Amp3Body.cu:334-349`). -/
def sumIntegral (inside : K → K → Bool) (rs : List (AmpTerm K)) (eff : K → K → K) (r : NormRange K) : Cx K :=
  (rs.map fun p => (rs.map fun q => p.1 * q.1.conj * integralOf inside p.2 q.2 eff r).sum).sum

/-- The value returned by `Amp3Body::normalize` when everything is computed afresh (`src/PDFs/physics/Amp3Body.cu:351-358`;
which integrals are computed is in `Verif.Model.Cache`). -/
def ampNormalize (inside : K → K → Bool) (rs : List (AmpTerm K)) (eff : K → K → K) (r : NormRange K) : K :=
  (sumIntegral inside rs eff r).re * (r.binSize12 * r.binSize13)

/-- `device_DalitzPlot` (`src/PDFs/physics/Amp3Body.cu:60-122`) at an event with these masses, if the cached waves are those of
the event (`src/PDFs/physics/detail/SpecialResonanceCalculator.cu:12-46`); the cursor is in `Verif.Model.Tree`. -/
def ampValue (inside : K → K → Bool) (rs : List (AmpTerm K)) (eff : K → K → K) (m12 m13 : K) : K :=
  if inside m12 m13 then (rs.map fun p : AmpTerm K => p.1 * p.2 m12 m13).sum.norm * eff m12 m13 else 0

/-! ### Fit fractions -/

/-- `buffer` in `Amp3Body::fit_fractions` (`src/PDFs/physics/Amp3Body.cu:36-39, 401-412`): coefficients and cached waves. -/
def ffBuffer (p q : Cx K × List (Cx K)) : K :=
  ((p.2.zip q.2).map fun w => (p.1 * q.1.conj * w.1 * w.2.conj).re).sum

/-- `Amp3Body::fit_fractions` (`src/PDFs/physics/Amp3Body.cu:376-428`); `n` is the number of events. -/
def fitFractions (rs : List (Cx K × List (Cx K))) (n : Nat) : List (List K) :=
  let total := (rs.map fun p => (rs.map fun q => ffBuffer p q).sum).sum / (n : K)
  rs.map fun p => rs.map fun q => ffBuffer p q / (n : K) / total

end

/-! ### Which function is taken to be the efficiency -/

/-- `Amp3Body::populateArrays` (`src/PDFs/physics/Amp3Body.cu:198-203`): `efficiencyFunction`, the last entry of the function
table after this PDF and everything below it were stored. -/
def efficiencyFunction {F : Type} [FpOps F] {L : Lib F} (env : Env F) (amp : Pdf L) (h : Host L) : Nat :=
  (Host.populate env amp h).table.length - 1

end GooFit
