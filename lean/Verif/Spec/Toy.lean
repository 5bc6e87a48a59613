import Verif.Model.Toy
/-!
# Specification for C33
-/
set_option autoImplicit false
namespace GooFit.Spec
variable {K : Type} [Field K] [LinearOrder K]

/-- What the user sees of one toy event: it lies in a bin of positive probability, and in the limits. -/
structure ToyEvent (c : ObsCell K) (probs : List K) (r x : K) : Prop where
  lower : c.lower ≤ x
  upper : x ≤ c.upper
  bin : ∃ (j : Nat) (p : K), probs[j]? = some p ∧ (0 < r → 0 < p) ∧ c.lower + (j : K) * ((c.upper - c.lower) / (c.numBins : K)) ≤ x
    ∧ x < c.lower + ((j : K) + 1) * ((c.upper - c.lower) / (c.numBins : K))

end GooFit.Spec
