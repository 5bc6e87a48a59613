import Verif.Spec.Dalitz3
/-!
# Specification for C93: the likelihood of a three-body decay
-/
set_option autoImplicit false
namespace GooFit.Spec

/-- The variables when the parameters in the list `vars` have the values `v`, in that order, and all others those of `h`. -/
noncomputable def valuesAt (vars : List Nat) (v : List ℝ) (h : Nat → ℝ) : Nat → ℝ :=
  fun i => if i ∈ vars then v.getD (vars.idxOf i) 0 else h i

/-- The integral of the density the user has described, over a grid. -/
noncomputable def total3 (d : DalitzCtx) (rs : List (ResUse ResNew)) (eff : (Nat → ℝ) → ℝ → ℝ → ℝ) (h : Nat → ℝ)
    (g : NormRange ℝ) : ℝ :=
  gridIntegral2 (density3 d rs eff h) g.lo12 g.hi12 g.nb12 g.lo13 g.hi13 g.nb13

/-- Minus the logarithm of the likelihood of the events: each event in which the density is positive counts with minus the
logarithm of the normalised density there; the others do not count. -/
noncomputable def nll3 (d : DalitzCtx) (rs : List (ResUse ResNew)) (eff : (Nat → ℝ) → ℝ → ℝ → ℝ) (h : Nat → ℝ)
    (g : NormRange ℝ) (data : List Ev3) : ℝ :=
  ((data.filter fun ev => decide (0 < density3 d rs eff h ev.m12 ev.m13)).map fun ev =>
    -Real.log (density3 d rs eff h ev.m12 ev.m13 / total3 d rs eff h g)).sum

end GooFit.Spec
