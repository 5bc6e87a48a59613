import Verif.Model.ConvFit
import Verif.Spec.Convolution
import Verif.Spec.Norm
/-!
# Specification for C100: the likelihood of a smeared distribution
-/
set_option autoImplicit false
namespace GooFit.Spec

/-- The multiple of the step at or just below `x`. -/
noncomputable def stepEdge (step x : ℝ) : ℝ := (⌊x / step⌋ : ℝ) * step

/-- The discrete convolution of `M` and `R` in the step that contains `x`. -/
noncomputable def smeared (M R : ℝ → ℝ) (lo step : ℝ) (n : Nat) (x : ℝ) : ℝ := convolution M R lo step n (stepEdge step x)

/-- Minus the logarithm of the likelihood of the events under a density that is normalised on a grid of `bins` bins between
`lower` and `upper`; events at which it is not positive do not count. -/
noncomputable def nllOn (lower upper : ℝ) (bins : Nat) (f : ℝ → ℝ) (data : List ℝ) : ℝ :=
  ((data.filter fun x => decide (0 < f x)).map fun x => -Real.log (f x / gridIntegral1 lower upper bins f)).sum

/-- What the minimiser should get, call by call: the quantity `nll` of the last data given and the values asked for. -/
def expectedNlls (nll : List ℝ → List ℝ → ℝ) : List CvUse → List ℝ → List ℝ
  | [], _ => []
  | .data d :: us, _ => expectedNlls nll us d
  | .call v :: us, d => nll v d :: expectedNlls nll us d

end GooFit.Spec
