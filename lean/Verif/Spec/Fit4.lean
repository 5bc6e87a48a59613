import Verif.Spec.Fit3
import Verif.Spec.TimeComponent4
/-!
# Specification for C94: the likelihood of a four-body decay
-/
set_option autoImplicit false
namespace GooFit.Spec

/-- Minus the logarithm of the likelihood of the events under a density with the given total: each event in which the density is
positive counts with minus the logarithm of the normalised density there; the others do not count. -/
noncomputable def nllOf {E : Type} (density : E → ℝ) (total : ℝ) (data : List E) : ℝ :=
  ((data.filter fun ev => decide (0 < density ev)).map fun ev => -Real.log (density ev / total)).sum

/-- The mean over the normalisation events of the described rate: integrated over the decay time (plain points) or weighted. -/
noncomputable def meanRate (d : Decay4) (v : MixVars) (ampsA ampsB : List AmpNew) (batches : List (NormBatch Ev4)) (h : Nat → ℝ) : ℝ :=
  (batches.map (describedTotal (describedRate d v ampsA ampsB h))).sum / (batches.map batchWeight).sum

/-- The mean over the normalisation events of the described intensity. -/
noncomputable def meanIntensity (d : Decay4) (amps : List AmpNew) (mc : List Ev4) (h : Nat → ℝ) : ℝ :=
  (mc.map (described d amps h)).sum / (mc.length : ℝ)

end GooFit.Spec
