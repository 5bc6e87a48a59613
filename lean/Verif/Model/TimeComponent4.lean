import Verif.Model.Component4
import Verif.Model.TimeFourBody
/-!
# Time-dependent four-body PDFs of the classes there are

Joins the constructors of `Verif.Model.Component4` to the PDF of `Verif.Model.TimeFourBody`.
-/
set_option autoImplicit false
namespace GooFit

/-- An amplitude as the time-dependent PDF is given it (`std::vector<Amplitude *>`, `DecayInfo4t::amplitudes` and
`amplitudes_B`, `include/goofit/PDFs/physics/DalitzPlotHelpers.h:114-133`).  `tag` stands for what `Amplitude::operator==`
(`src/PDFs/physics/Amplitude.cu:39-42`) compares besides the coefficient and the number of permutations: the name and the
addresses of the line shapes and spin factors. -/
structure AmpUse where
  tag : Nat
  new : AmpNew

/-- The amplitude with its components constructed (`src/PDFs/physics/Amplitude.cu:11-31`). -/
noncomputable def ampUseBuild (junk : Nat → Nat → ℝ) (h : Nat → ℝ) (a : AmpUse) : Option (TAmp LsObj SfObj Nat Nat) :=
  (ampBuild junk h a.new).map fun b => ⟨a.tag, a.new.ar, a.new.ai, b⟩

/-- The four variables of `DecayInfo4t` (`include/goofit/PDFs/physics/DalitzPlotHelpers.h:114-133`), registered in this order
(`src/PDFs/physics/Amp4Body_TD.cu:340-343`). -/
structure MixVars where
  tau : Nat
  x : Nat
  y : Nat
  rate : Nat

/-- The PDF (`src/PDFs/physics/Amp4Body_TD.cu:310-561`).  The line shapes and spin factors are computed by
`LSCalculator_TD.cu:11-76` and `SFCalculator_TD.cu:11-61`, at normalisation events by `NormLSCalculator_TD.cu:11-67` and
`NormSpinCalculator_TD.cu:11-57`, which are the functions of the time-independent PDF. -/
noncomputable def timeFourBodyPdf (masses : List ℝ) (v : MixVars) (builtA builtB : List (TAmp LsObj SfObj Nat Nat))
    (efficiency : (Nat → ℝ) → Ev4 × ℝ × ℝ → ℝ) (res : (Nat → ℝ) → ResFn) (norm : (Nat → ℝ) → NormFn)
    (batches : List (NormBatch Ev4)) : T4 LsObj SfObj Nat Nat (Nat → ℝ) Ev4 where
  ampsA := builtA
  ampsB := builtB
  tau := v.tau
  x := v.x
  y := v.y
  rate := v.rate
  value h i := h i
  lineShape o h ev := (lsCalc masses o h ev).getD 0
  spinFactor o ev := (sfCalc masses o ev).getD 0
  efficiency := efficiency
  res := res
  norm := norm
  batches := batches

end GooFit
