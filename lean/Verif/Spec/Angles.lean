import Mathlib.Analysis.Real.Sqrt
/-!
# Angles on the Dalitz plot
-/
set_option autoImplicit false
namespace GooFit.Spec

/-- Källén's function. -/
def kallen (a b c : ℝ) : ℝ := a ^ 2 + b ^ 2 + c ^ 2 - 2 * a * b - 2 * b * c - 2 * c * a

/-- The cosine of the helicity angle of the pair `h h` of equal masses in a decay `D → K h h`, from the squared masses of the
pairs. -/
noncomputable def helicityCos (mD mK mh s12 s13 s23 : ℝ) : ℝ :=
  s23 * (s12 - s13) / (√(kallen s23 (mh ^ 2) (mh ^ 2)) * √(kallen (mD ^ 2) (mK ^ 2) s23))

end GooFit.Spec
