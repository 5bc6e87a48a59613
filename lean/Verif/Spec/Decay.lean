import Mathlib.Data.Real.Sqrt
import Mathlib.Algebra.BigOperators.Fin
/-!
# Three-body decays
-/
set_option autoImplicit false
namespace GooFit.Spec

/-- Momentum in three dimensions. -/
abbrev Mom := Fin 3 → ℝ

/-- Square of the length of a momentum. -/
def Mom.sq (p : Mom) : ℝ := ∑ i, p i ^ 2

/-- Energy of a particle of mass `m` with momentum `p`. -/
noncomputable def energy (m : ℝ) (p : Mom) : ℝ := Real.sqrt (m ^ 2 + Mom.sq p)

/-- A particle of mass `M` at rest can decay to particles of masses `m₁`, `m₂`, `m₃` such that the
invariant masses squared of the pairs (1,2) and (1,3) are `s12` and `s13`: there are momenta for which
momentum and energy are conserved. -/
def CanDecay (M m1 m2 m3 s12 s13 : ℝ) : Prop :=
  ∃ p1 p2 p3 : Mom, p1 + p2 + p3 = 0 ∧ energy m1 p1 + energy m2 p2 + energy m3 p3 = M ∧
    (energy m1 p1 + energy m2 p2) ^ 2 - Mom.sq (p1 + p2) = s12 ∧
    (energy m1 p1 + energy m3 p3) ^ 2 - Mom.sq (p1 + p3) = s13

end GooFit.Spec
