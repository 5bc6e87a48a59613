import Mathlib.Algebra.Order.Field.Basic
/-!
# Specification: linear propagation of uncertainties

A quantity is a value with an absolute uncertainty.  `Within v u x`: the quantity `x` is compatible
with the value `v` and the uncertainty `u`.
-/
set_option autoImplicit false
namespace GooFit.Spec
variable {K : Type} [Field K] [LinearOrder K]

/-- `x` is compatible with `v ± u`. -/
def Within (v u x : K) : Prop := v - u ≤ x ∧ x ≤ v + u

/-- Products and quotients add relative uncertainties: the absolute uncertainty of a result `r` of two
inputs `v ± u` and `w ± t`. -/
def addRelative (r v u w t : K) : K := |r| * (u / |v| + t / |w|)

end GooFit.Spec
