import Verif.Model.Complex
import Mathlib.Algebra.BigOperators.Group.Finset.Basic
/-!
# Specification for C41: the coherent sum and its integral
-/
set_option autoImplicit false
namespace GooFit.Spec
variable {K : Type} [Field K]
open Finset

/-- `|Σ aᵢ Aᵢ|²`, for coefficients and amplitudes. -/
def intensity (terms : List (Cx K × Cx K)) : K :=
  let re := (terms.map fun t => t.1.re * t.2.re - t.1.im * t.2.im).sum
  let im := (terms.map fun t => t.1.re * t.2.im + t.1.im * t.2.re).sum
  re ^ 2 + im ^ 2

/-- The midpoint of bin `b` of `n` between two limits. -/
def midpoint (lo hi : K) (n b : Nat) : K := lo + ((b : K) + 1 / 2) * ((hi - lo) / (n : K))

/-- The midpoint rule on a grid of `n` times `m` bins. -/
def gridIntegral2 (f : K → K → K) (lo hi : K) (n : Nat) (lo' hi' : K) (m : Nat) : K :=
  ∑ j ∈ range m, ∑ i ∈ range n, f (midpoint lo hi n i) (midpoint lo' hi' m j) * ((hi - lo) / (n : K)) * ((hi' - lo') / (m : K))

end GooFit.Spec
